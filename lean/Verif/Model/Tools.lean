import Verif.Model.Host
/-!
# `bin/uechopost/uechopost.rs`: the command line tool that posts a message

Arguments are modelled as their bytes (`env::args` panics on arguments that are not UTF-8; such arguments are not
modelled). The parser of IP addresses of the standard library is a parameter. Console output is not modelled.
-/
namespace Uecho
variable {S : Type}

/-- `hex::decode` of the `hex` crate for one digit (used at bin/uechopost/uechopost.rs:71, 81, 97, 108). -/
def hexValue (c : UInt8) : Option UInt8 :=
  if 0x30 ≤ c ∧ c ≤ 0x39 then some (c - 0x30)
  else if 0x41 ≤ c ∧ c ≤ 0x46 then some (c - 0x41 + 10)
  else if 0x61 ≤ c ∧ c ≤ 0x66 then some (c - 0x61 + 10)
  else none

/-- `hex::decode` of the `hex` crate (used at bin/uechopost/uechopost.rs:71, 81, 97, 108): an error for an odd
number of digits or an invalid digit. -/
def hexDecode : List UInt8 → Option (List UInt8)
  | [] => some []
  | [_] => none
  | c :: d :: rest =>
    match hexValue c, hexValue d, hexDecode rest with
    | some x, some y, some r => some ((x <<< 4 ||| y) :: r)
    | _, _, _ => none

/-- The local variables of `main` filled by the arguments (bin/uechopost/uechopost.rs:36-42). -/
structure PostArgs where
  program : List UInt8
  addr : IpAddr
  esv : ESV
  obj : UInt32
  epcs : List UInt8
  edts : List (List UInt8)
deriving DecidableEq, Repr

/-- `ipaddr_none` (bin/uechopost/uechopost.rs:37). -/
def ipaddrNone : IpAddr := .v4 0

/-- Their initial values (bin/uechopost/uechopost.rs:36-42). -/
def PostArgs.init : PostArgs := ⟨[], ipaddrNone, .Unknown, 0, [], []⟩

/-- `"-v"` (bin/uechopost/uechopost.rs:48). -/
def argV : List UInt8 := [0x2D, 0x76]
/-- `"-h"` (bin/uechopost/uechopost.rs:51). -/
def argH : List UInt8 := [0x2D, 0x68]

/-- One iteration of the argument loop (bin/uechopost/uechopost.rs:46-119); `none`: the program has printed its
usage and returned. -/
def postArg (b : Build) (parseIp : List UInt8 → Option IpAddr) (s : PostArgs) (arg : List UInt8) :
    Res (Option PostArgs) :=
  if arg = argV then .ok (some s)
  else if arg = argH then .ok none
  else if s.program.length = 0 then .ok (some { s with program := arg })
  else if s.addr = ipaddrNone then
    match parseIp arg with
    | none => .ok none
    | some a => .ok (some { s with addr := a })
  else if s.obj = 0 then
    match hexDecode arg with
    | none => .ok none
    | some bytes => do
      let v ← bytesToU32 b bytes
      pure (some { s with obj := v })
  else if s.esv = .Unknown then
    match hexDecode arg with
    | none => .ok none
    | some bytes => do
      let x ← index bytes 0
      let s := { s with esv := ESV.fromU8 x }
      if s.esv = .Unknown then pure none else pure (some s)
  else if s.epcs.length = s.edts.length then
    match hexDecode arg with
    | none => .ok none
    | some bytes => do
      let x ← index bytes 0
      pure (some { s with epcs := s.epcs ++ [x] })
  else if s.edts.length < s.epcs.length then
    match hexDecode arg with
    | none => .ok none
    | some bytes => .ok (some { s with edts := s.edts ++ [bytes] })
  else .ok (some s)

/-- The argument loop (bin/uechopost/uechopost.rs:46-119). -/
def postArgs (b : Build) (parseIp : List UInt8 → Option IpAddr) : PostArgs → List (List UInt8) → Res (Option PostArgs)
  | s, [] => .ok (some s)
  | s, a :: as =>
    match postArg b parseIp s a with
    | .panic => .panic
    | .ok none => .ok none
    | .ok (some s) => postArgs b parseIp s as

/-- The checks after the loop (bin/uechopost/uechopost.rs:121-145). -/
def PostArgs.complete (s : PostArgs) : Bool :=
  if s.addr = ipaddrNone then false
  else if s.esv = .Unknown then false
  else if s.obj = 0 then false
  else if s.epcs.length = 0 then false
  else true

/-- The properties of the message (bin/uechopost/uechopost.rs:160-167): `n` is the index in `epcs`. -/
def postProperties (edts : List (List UInt8)) : Nat → List UInt8 → List WProperty
  | _, [] => []
  | n, epc :: epcs =>
    ⟨epc, match edts[n]? with
      | some d => d
      | none => []⟩ :: postProperties edts (n + 1) epcs

/-- The message (bin/uechopost/uechopost.rs:157-167). -/
def PostArgs.message (s : PostArgs) : Message :=
  let m := Message.new
  let m := m.setEsv s.esv
  let m := m.setDeoj s.obj
  (postProperties s.edts 0 s.epcs).foldl (fun m p => m.addProperty p) m

/-- The part of `main` before the controller is started (bin/uechopost/uechopost.rs:35-167): the message to post and
the address it is for, or nothing if the usage is printed. The message does not depend on the controller. -/
def postCommand (b : Build) (parseIp : List UInt8 → Option IpAddr) (args : List (List UInt8)) :
    Res (Option (IpAddr × Message)) :=
  match postArgs b parseIp .init args with
  | .panic => .panic
  | .ok none => .ok none
  | .ok (some s) => .ok (if s.complete then some (s.addr, s.message) else none)

/-- Posting the message (bin/uechopost/uechopost.rs:171-202): to the first of the discovered `nodes` with the given IP
address; the first result is false if there is none. Waiting for the response is not modelled. -/
def postTo (ok : Nat → Bool) (h : Host S) (addr : IpAddr) (msg : Message) : List RemoteNode → Bool × Host S × List Out
  | [] => (false, h, [])
  | r :: rs =>
    if r.addr.ip ≠ addr then postTo ok h addr msg rs
    else match msg.esv with
      | .WriteRequest | .NotificationRequest =>
        let s := h.sendMessage ok true r msg
        (true, s.2.2.1, s.2.2.2)
      | .WriteRequestResponseRequired | .ReadRequest | .WriteReadRequest =>
        let s := h.postMessage ok r msg
        (true, s.2.2.1, s.2.2.2)
      | _ => (true, h, [])

/-! ## `bin/uechosearch/uechosearch.rs` and `bin/uechobench/uechobench.rs` -/

/-- The read message of the tools (bin/uechosearch/uechosearch.rs:59-64, 95-100, bin/uechobench/uechobench.rs:81-86). -/
def readMessage (obj : UInt32) (epc : UInt8) : Message :=
  let m := Message.new
  let m := m.setEsv .ReadRequest
  let m := m.setDeoj obj
  m.addProperty ⟨epc, []⟩

/-- The messages for one object (bin/uechosearch/uechosearch.rs:89-103, bin/uechobench/uechobench.rs:75-89);
`onlyMandatory` is `only_mandatory_properties`, `order` the iteration order of the properties. -/
def toolObject (onlyMandatory : Bool) (order : List UInt8) (o : Object) : List Message :=
  (o.values order).filterMap (fun p =>
    if onlyMandatory && !p.isReadRequired then none else some (readMessage o.code p.code))

/-- The messages for the objects of a node (bin/uechosearch/uechosearch.rs:87-121, bin/uechobench/uechobench.rs:73-107). -/
def toolObjects (onlyMandatory : Bool) : HashOrder → List Object → List Message
  | _, [] => []
  | ω, o :: os => toolObject onlyMandatory (ω.sub 0).here o ++ toolObjects onlyMandatory (ω.sub 1) os

/-- The messages `uechosearch` posts, each with the node it is posted to, for the nodes `ctrl.nodes()` returned
(bin/uechosearch/uechosearch.rs:57-122). What is printed is not modelled except for the manufacturer's name below. -/
def searchPosts (onlyMandatory : Bool) : HashOrder → List RemoteNode → List (RemoteNode × Message)
  | _, [] => []
  | ω, r :: rs =>
    (r, readMessage 0x0EF001 0x8A) :: (toolObjects onlyMandatory (ω.sub 0) r.objects).map (fun m => (r, m)) ++
      searchPosts onlyMandatory (ω.sub 1) rs

/-- The messages `uechobench` posts in one round (bin/uechobench/uechobench.rs:68-108). -/
def benchRound (onlyMandatory : Bool) : HashOrder → List RemoteNode → List (RemoteNode × Message)
  | _, [] => []
  | ω, r :: rs =>
    (toolObjects onlyMandatory (ω.sub 0) r.objects).map (fun m => (r, m)) ++ benchRound onlyMandatory (ω.sub 1) rs

/-- The messages of `n` rounds (bin/uechobench/uechobench.rs:67-109); `nodes i` is what `ctrl.nodes()` returns in
round `i`. -/
def benchPosts (onlyMandatory : Bool) (nodes : Nat → List RemoteNode) : HashOrder → Nat → Nat → List (RemoteNode × Message)
  | _, _, 0 => []
  | ω, i, n + 1 => benchRound onlyMandatory (ω.sub 0) (nodes i) ++ benchPosts onlyMandatory nodes (ω.sub 1) (i + 1) n

/-- What `uechosearch` makes of the response to the manufacturer code request (bin/uechosearch/uechosearch.rs:66-82):
the name it prints. -/
def manufacturerName (b : Build) (db : Database) (msg : Message) : Res String :=
  if 0 < msg.properties.length then do
    let p ← index msg.properties 0
    let code ← bytesToU32 b p.data
    match db.findManufacture code with
    | some m => pure m.name
    | none => pure ""
  else pure ""

/-- What both tools print for a property (bin/uechosearch/uechosearch.rs:105-109, bin/uechobench/uechobench.rs:91-95):
the data whose hexadecimal notation is printed. -/
def printedData (msg : Message) : Res (List UInt8) :=
  if 0 < msg.opc then do
    let p ← msg.property 0
    pure p.data
  else pure []

/-- `"-a"` (bin/uechosearch/uechosearch.rs:40, bin/uechobench/uechobench.rs:49). -/
def argA : List UInt8 := [0x2D, 0x61]
/-- `"-n"` (bin/uechobench/uechobench.rs:44). -/
def argN : List UInt8 := [0x2D, 0x6E]

/-- The argument loop of `uechosearch` (bin/uechosearch/uechosearch.rs:34-49): `none` for the usage, else
`only_mandatory_properties`. -/
def searchArgs : Bool → List (List UInt8) → Option Bool
  | only, [] => some only
  | only, a :: as =>
    if a = argV then searchArgs only as
    else if a = argA then searchArgs false as
    else if a = argH then none
    else searchArgs only as

/-- The argument loop of `uechobench` (bin/uechobench/uechobench.rs:34-59): `parseCount` is `str::parse::<i32>`. -/
def benchArgs (parseCount : List UInt8 → Option Int) : Bool → Int → List (List UInt8) → Res (Option (Bool × Int))
  | only, cnt, [] => .ok (some (only, cnt))
  | only, cnt, a :: as =>
    if a = argV then benchArgs parseCount only cnt as
    else if a = argN then
      match as with
      | [] => .panic
      | c :: as =>
        match parseCount c with
        | none => .panic
        | some n => benchArgs parseCount only n as
    else if a = argA then benchArgs parseCount false cnt as
    else if a = argH then .ok none
    else benchArgs parseCount only cnt as

end Uecho
