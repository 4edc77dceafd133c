import Verif.Model.Transport
/-!
# `src/node_profile.rs`, `src/request_handler.rs`, `src/node.rs`

Methods on `&mut self` return the new state. Network effects are returned as a list of `Out` events.
-/
namespace Uecho

/-! ## Node profile -/

/-- `NodeProfile::new` (src/node_profile.rs:64-70). Each import draws its own UUID. -/
def nodeProfileNew (b : Build) (db : Database) (uuid₁ uuid₂ : List UInt8) (ω : HashOrder) : Res Object := do
  let obj := Object.new
  let obj := obj.setCode nodeProfileCode
  let r ← obj.addStandardProperties b db uuid₁ (ω.sub 0) superObjectCode
  let r ← r.2.addStandardProperties b db uuid₂ (ω.sub 1) nodeProfileCode
  pure r.2

/-- Two class bytes of an object code (src/node_profile.rs:83-84). -/
def classBytes (c : UInt32) : List UInt8 :=
  [((c &&& 0xFF0000) >>> 16).toUInt8, ((c &&& 0x00FF00) >>> 8).toUInt8]

/-- Three instance bytes of an object code (src/node_profile.rs:93-95). -/
def instanceBytes (c : UInt32) : List UInt8 :=
  [((c &&& 0xFF0000) >>> 16).toUInt8, ((c &&& 0x00FF00) >>> 8).toUInt8, (c &&& 0x0000FF).toUInt8]

/-- `num_instances_prop.set_int_data(…)` behind an `is_some` check (src/node_profile.rs:99-105,
108-114). -/
def Object.setIntIfPresent (b : Build) (o : Object) (c : UInt8) (v : UInt32) (size : Nat) : Res Object :=
  match o.properties c with
  | none => .ok o
  | some p => do
    let p' ← p.setIntData b v size
    pure { o with properties := fun c' => if c' = c then some p' else o.properties c' }

/-- `NodeProfile::update` (src/node_profile.rs:76-142). `obj_codes.len() - 1` underflows for an empty
list (a panic with overflow checks); the only caller passes a list containing the node profile. The
writes of lines 117-141 are `set_property_data` (nothing happens when the property is missing). -/
def nodeProfileUpdate (b : Build) (obj : Object) (codes : List UInt32) : Res Object := do
  if codes.length = 0 ∧ b.overflowChecks then
    .panic
  let numClass : UInt8 := UInt8.ofNat codes.length
  let numObj : UInt8 := UInt8.ofNat (codes.length + (2 ^ 64 - 1))
  let classList := codes.foldl (fun acc c => acc ++ classBytes c) [numClass]
  let instanceList := codes.foldl (fun acc c =>
    if c = nodeProfileCode then acc else acc ++ instanceBytes c) [numObj]
  let obj ← obj.setIntIfPresent b 0xD3 numObj.toUInt32 3
  let obj ← obj.setIntIfPresent b 0xD4 numClass.toUInt32 2
  let obj := (obj.setPropertyData 0xD6 instanceList).2
  let obj := (obj.setPropertyData 0xD5 instanceList).2
  pure (obj.setPropertyData 0xD7 classList).2

/-! ## Request handlers -/

/-- A `RequestHandler` (src/request_handler.rs:84-86): an arbitrary function that may change the
application state `S` and the object it is given (`&mut Object`), and accepts or refuses. Handlers that
panic are in `Model/Panics`; handlers that do not return are not modelled. -/
abbrev Handler (S : Type) := S → Object → ESV → WProperty → Bool × Object × S

/-- One handler on all properties of a request (src/request_handler.rs:117-126). -/
def runHandler {S : Type} (h : Handler S) (esv : ESV) (ps : List WProperty) (o : Object) (s : S) :
    Bool × Object × S :=
  ps.foldl (fun acc p =>
    let r := h acc.2.2 acc.2.1 esv p
    (if !r.1 then false else acc.1, r.2.1, r.2.2)) (true, o, s)

/-- `RequestManager::property_request_received` (src/request_handler.rs:109-132): all handlers are
called one after the other on the same object. -/
def requestReceived {S : Type} (hs : List (Handler S)) (msg : Message) (o : Object) (s : S) :
    Bool × Object × S :=
  if hs.length = 0 then (true, o, s)
  else hs.foldl (fun acc h =>
    let r := runHandler h msg.esv msg.properties acc.2.1 acc.2.2
    (if r.1 then true else acc.1, r.2.1, r.2.2)) (false, o, s)

/-- `impl RequestHandler for Arc<Mutex<Node>>` (src/node.rs:473-493). -/
def nodeHandler {S : Type} : Handler S := fun s deoj esv prop =>
  if deoj.code ≠ nodeProfileCode then (false, deoj, s)
  else match esv with
  | .ReadRequest | .NotificationRequest =>
    if (deoj.findProperty prop.code).isNone then (false, deoj, s) else (true, deoj, s)
  | _ => (false, deoj, s)

/-! ## Node -/

/-- `struct Node` (src/node.rs:33-40). `post` is the channel whose receiver was returned by the last
`post_message`, `none` for a sender whose receiver is gone (src/node.rs:44, 247); `nextChan` (ghost)
makes channel names unique. `app` is the state of the application's handlers. -/
structure Node (S : Type) where
  transport : Manager
  objects : List Object
  lastTid : UInt16
  post : Option Nat
  nextChan : Nat
  handlers : List (Handler S)
  observers : List ObserverRef
  app : S

/-- Observable effects of an operation. -/
inductive Out where
  /-- the message `given` by the caller was handed to the transport as `used` (with its TID) -/
  | handed (given used : Message)
  /-- a datagram went out -/
  | tx (t : Tx)
  /-- a message was put into the channel of a `post_message` -/
  | deliver (ch : Nat) (m : Message)
deriving DecidableEq, Repr

/-- First object with the given code (`find_object`, src/node.rs:78-85). -/
def findObject (objs : List Object) (code : UInt32) : Option Object :=
  objs.find? (fun o => o.code == code)

/-- Apply `f` to the first object with the given code (`find_object_mut`, src/node.rs:87-94). -/
def updateObject (code : UInt32) (f : Object → Object) : List Object → List Object
  | [] => []
  | o :: os => if o.code == code then f o :: os else o :: updateObject code f os

namespace Node
variable {S : Type}

/-- `update_node_profile` (src/node.rs:251-263). -/
def updateNodeProfile (b : Build) (n : Node S) : Res (Node S) :=
  let codes := n.objects.map Object.code
  match findObject n.objects nodeProfileCode with
  | none => .ok n
  | some np => do
    let np' ← nodeProfileUpdate b np codes
    pure { n with objects := updateObject nodeProfileCode (fun _ => np') n.objects }

/-- `Node::add_object` (src/node.rs:68-72). -/
def addObject (b : Build) (n : Node S) (o : Object) : Res (Node S) :=
  updateNodeProfile b { n with objects := n.objects ++ [o] }

/-- `Node::new` (src/node.rs:43-58): the node profile object and the built-in handler. -/
def new (b : Build) (db : Database) (uuid₁ uuid₂ : List UInt8) (ω : HashOrder) (app : S) :
    Res (Node S) := do
  let np ← nodeProfileNew b db uuid₁ uuid₂ ω
  let n₀ : Node S := ⟨Manager.new, [], 0, none, 0, [], [], app⟩
  let n ← addObject b n₀ np
  pure { n with handlers := n.handlers ++ [nodeHandler] }

/-- `Node::add_request_handler` (src/node.rs:111-113). -/
def addRequestHandler (n : Node S) (h : Handler S) : Node S := { n with handlers := n.handlers ++ [h] }

/-- `Node::add_observer` (src/node.rs:115-117). -/
def addObserver (n : Node S) (o : ObserverRef) : Node S := { n with observers := n.observers ++ [o] }

/-- `set_object_properties_data` / `_byte` (src/node.rs:96-105). -/
def setObjectPropertiesByte (n : Node S) (c : UInt8) (v : UInt8) : Node S :=
  { n with objects := n.objects.map (fun o => (o.setPropertyData c [v]).2) }

/-- `next_tid` (src/node.rs:221-228). -/
def nextTid (n : Node S) : UInt16 × Node S :=
  let n := if 65535 ≤ n.lastTid then { n with lastTid := 0 } else { n with lastTid := n.lastTid + 1 }
  (n.lastTid, n)

/-- `update_message_trandaction_id` (src/node.rs:214-219). -/
def updateTid (n : Node S) (msg : Message) : Message × Node S :=
  if msg.hasTid then (msg, n)
  else
    let r := n.nextTid
    (msg.setTid r.1, r.2)

/-- `Node::send_message` (src/node.rs:119-122): result, the caller's message afterwards, new state,
effects. -/
def sendMessage (ok : Nat → Bool) (n : Node S) (to : SocketAddr) (msg : Message) :
    Bool × Message × Node S × List Out :=
  let r := n.updateTid msg
  let s := r.2.transport.send ok to r.1
  (s.1, r.1, r.2, .handed msg r.1 :: s.2.map .tx)

/-- `Node::post_message` (src/node.rs:124-130): the new channel, the caller's message afterwards, new
state, effects. The result of the transport is ignored. -/
def postMessage (ok : Nat → Bool) (n : Node S) (to : SocketAddr) (msg : Message) :
    Nat × Message × Node S × List Out :=
  let r := n.updateTid msg
  let ch := r.2.nextChan
  let n := { r.2 with post := some ch, nextChan := ch + 1 }
  let s := n.transport.send ok to r.1
  (ch, r.1, n, .handed msg r.1 :: s.2.map .tx)

/-- `Node::notify` (src/node.rs:132-135). -/
def notify (ok : Nat → Bool) (n : Node S) (msg : Message) : Bool × Message × Node S × List Out :=
  let r := n.updateTid msg
  let s := r.2.transport.notify ok r.1
  (s.1, r.1, r.2, .handed msg r.1 :: s.2.map .tx)

/-- `create_annouce_property_message` (src/node.rs:137-144). -/
def announceMessage (obj : Object) (prop : Property) : Message :=
  let msg := Message.new
  let msg := msg.setEsv .Notification
  let msg := msg.setDeoj nodeProfileCode
  let msg := msg.setSeoj obj.code
  msg.addProperty prop.toWire

/-- `Node::annouce_property` (src/node.rs:146-149). -/
def announceProperty (ok : Nat → Bool) (n : Node S) (obj : Object) (prop : Property) :
    Bool × Node S × List Out :=
  let r := n.notify ok (announceMessage obj prop)
  (r.1, r.2.2.1, r.2.2.2)

/-- `Node::annouce` (src/node.rs:151-165): announces property 0xD5 of the node profile. -/
def announce (ok : Nat → Bool) (n : Node S) : Bool × Node S × List Out :=
  match findObject n.objects nodeProfileCode with
  | none => (false, n, [])
  | some np =>
    match np.findProperty 0xD5 with
    | none => (false, n, [])
    | some p =>
      let r := n.notify ok (announceMessage np p)
      (r.1, r.2.2.1, r.2.2.2)

/-- `Node::has_interface` (src/node.rs:167-169). -/
def hasInterface (n : Node S) (a : IpAddr) : Bool := n.transport.hasInterface a
/-- `Node::is_running` (src/node.rs:171-173). -/
def isRunning (n : Node S) : Bool := n.transport.isRunning

/-- Starting the transport unless it is running (src/node.rs:178-182). -/
def startTransport (menv uenv : List IfOutcome) (m : Manager) : Res (Bool × Manager) :=
  if !m.isRunning then m.start menv uenv else .ok (true, m)

/-- `Node::start` (src/node.rs:175-199). -/
def start (menv uenv : List IfOutcome) (ok : Nat → Bool) (n : Node S) :
    Res (Bool × Node S × List Out) := do
  let r ← startTransport menv uenv n.transport
  let n := { n with transport := r.2 }
  if !r.1 then
    return (false, n, [])
  let n := n.setObjectPropertiesByte 0x80 0x30
  let n := n.setObjectPropertiesByte 0x88 0x42
  let n := { n with transport := n.observers.foldl Manager.addObserver n.transport }
  let a := n.announce ok
  if !a.1 then
    return (false, a.2.1, a.2.2)
  return (true, a.2.1, a.2.2)

/-- `Node::stop` (src/node.rs:201-212). -/
def stop (n : Node S) : Res (Bool × Node S) := do
  let n := n.setObjectPropertiesByte 0x80 0x31
  let r ← n.transport.stop
  let n := { n with transport := r.2 }
  if !r.1 then
    return (false, n)
  return (true, n)

/-- `is_last_message_response` (src/node.rs:230-238). -/
def isLastMessageResponse (n : Node S) (msg : Message) : Bool :=
  if msg.esv.isRequest then false
  else if msg.tid ≠ n.lastTid then false
  else true

/-- `send_post_reopnse` (src/node.rs:240-249). -/
def sendPostResponse (n : Node S) (msg : Message) : Node S × List Out :=
  ({ n with post := none },
   match n.post with
   | some ch => [.deliver ch msg]
   | none => [])

/-- The body of the loop of `is_valid_request_message` (src/node.rs:307-358) for one property. -/
def validProperty (dst : Object) (esv : ESV) (rp : WProperty) : Bool :=
  match dst.findProperty rp.code with
  | none => false
  | some p =>
    let accessOk : Bool := match esv with
      | .WriteRequest | .WriteRequestResponseRequired => p.isWritable
      | .ReadRequest | .NotificationRequest | .NotificationResponseRequired => p.isReadable
      | .WriteReadRequest => p.isWritable && p.isReadable
      | _ => false
    if !accessOk then false
    else match esv with
      | .WriteRequest | .WriteRequestResponseRequired | .WriteReadRequest =>
        if 0 < p.capacity ∧ p.capacity < rp.size then false else true
      | _ => true

/-- `is_valid_request_message` (src/node.rs:307-358). -/
def validList (dst : Object) (esv : ESV) (ps : List WProperty) : Bool :=
  ps.all (validProperty dst esv)

/-- The validity checks of `message_received` (src/node.rs:360-374). -/
def validRequest (dst : Object) (req : Message) : Bool :=
  match req.esv with
  | .WriteReadRequest =>
    if !validList dst .WriteRequest req.setProperties then false
    else if !validList dst .ReadRequest req.getProperties then false
    else true
  | esv => validList dst esv req.properties

/-- Copying the handlers' changes back (src/node.rs:402-409); `find_property_mut` + `set_data` is
`setPropertyData`. -/
def copyBack (dst : Object) (ps : List Property) : Object :=
  ps.foldl (fun d p => (d.setPropertyData p.code p.data).2) dst

/-- Writing the request data (src/node.rs:421-428, 431-438). -/
def writeLoop (dst : Object) (ps : List WProperty) : Object :=
  ps.foldl (fun d p => (d.setPropertyData p.code p.data).2) dst

/-- Writing the request data (src/node.rs:419-441). -/
def writeRequestData (dst : Object) (req : Message) : Object :=
  match req.esv with
  | .WriteRequest | .WriteRequestResponseRequired => writeLoop dst req.properties
  | .WriteReadRequest => writeLoop dst req.setProperties
  | _ => dst

/-- `Node::message_received` (src/node.rs:276-446). `ω` supplies the hash orders of the clone and of
the loop over the copy's properties. -/
def messageReceived (b : Build) (ω : HashOrder) (n : Node S) (req : Message) :
    Res (Option Message × Node S) :=
  if req.esv.isResponse then .ok (none, n)
  else match findObject n.objects req.deoj with
  | none => .ok (none, n)
  | some dst =>
    if !req.esv.isRequest then .ok (none, n)
    else if !validRequest dst req then .ok (some (responseErrorMessage req), n)
    else do
      let copy ← dst.clone b (ω.sub 0)
      let r := requestReceived n.handlers req copy n.app
      let n := { n with app := r.2.2 }
      if !r.1 then
        return (some (responseErrorMessage req), n)
      let objs := updateObject req.deoj (fun d => copyBack d (r.2.1.values (ω.sub 1).here)) n.objects
      let objs := updateObject req.deoj (fun d => writeRequestData d req) objs
      let n := { n with objects := objs }
      match findObject objs req.deoj with
      | none => return (none, n)
      | some dst => return (dst.messageReceived req, n)

/-- Handing a response to the pending post (src/node.rs:454-456). -/
def observePost (n : Node S) (msg : Message) : Res (Node S × List Out) :=
  if n.isLastMessageResponse msg then do
    let m ← msg.clone
    pure (n.sendPostResponse m)
  else .ok (n, [])

/-- `impl Observer for Arc<Mutex<Node>>` (src/node.rs:449-471) once the lock has been obtained. -/
def observe (b : Build) (ω : HashOrder) (ok : Nat → Bool) (n : Node S) (msg : Message) :
    Res (Node S × List Out) := do
  let p ← n.observePost msg
  let r ← p.1.messageReceived b ω msg
  match r.1 with
  | none => return (r.2, p.2)
  | some res =>
    if res.esv.isResponse then
      if res.esv.isUnicastResponse then
        let s := r.2.sendMessage ok ⟨msg.sender.ip, port⟩ res
        return (s.2.2.1, p.2 ++ s.2.2.2)
      else
        let s := r.2.notify ok res
        return (s.2.2.1, p.2 ++ s.2.2.2)
    else return (r.2, p.2)

/-- `impl Observer for Arc<Mutex<Node>>` (src/node.rs:449-471): `try_lock` fails while another thread
holds the node (`free = false`). -/
def observeTry (b : Build) (ω : HashOrder) (ok : Nat → Bool) (free : Bool) (n : Node S) (msg : Message) :
    Res (Node S × List Out) :=
  if !free then .ok (n, []) else n.observe b ω ok msg

/-- `DeviceNode::set_property` (src/device_node.rs:68-85). -/
def setProperty (n : Node S) (objCode : UInt32) (c : UInt8) (d : List UInt8) : Bool × Node S :=
  match findObject n.objects objCode with
  | none => (false, n)
  | some o =>
    match o.findProperty c with
    | none => (false, n)
    | some _ =>
      (true, { n with objects := updateObject objCode (fun o => (o.setPropertyData c d).2) n.objects })

/-- The application changes an object through the reference it gets from `Node::find_object_mut` (src/node.rs:87-94) or
`Node::node_profile_object` (src/node.rs:107-109), in any way `f` (which does not panic); without such an object nothing
happens. -/
def editObject (n : Node S) (objCode : UInt32) (f : Object → Object) : Node S :=
  { n with objects := updateObject objCode f n.objects }

/-- `DeviceNode::property` (src/device_node.rs:88-99). -/
def property (n : Node S) (objCode : UInt32) (c : UInt8) : Option (List UInt8) :=
  match findObject n.objects objCode with
  | none => none
  | some o =>
    match o.findProperty c with
    | none => none
    | some p => some p.data

end Node

/-! ## Histories -/

/-- One operation on a node: a call of the public API, or a message handed to the node's observer by a
receiver thread (`free`: the node's mutex was free at that moment). Each operation carries what the
environment contributes to it. -/
inductive Op (S : Type) where
  | addObject (o : Object)
  | addHandler (h : Handler S)
  | addObserver (o : ObserverRef)
  | send (to : SocketAddr) (msg : Message) (ok : Nat → Bool)
  | post (to : SocketAddr) (msg : Message) (ok : Nat → Bool)
  | notify (msg : Message) (ok : Nat → Bool)
  | announceProperty (obj : Object) (prop : Property) (ok : Nat → Bool)
  | announce (ok : Nat → Bool)
  | start (menv uenv : List IfOutcome) (ok : Nat → Bool)
  | stop
  | setProperty (objCode : UInt32) (c : UInt8) (d : List UInt8)
  | edit (objCode : UInt32) (f : Object → Object)
  | receive (msg : Message) (free : Bool) (ω : HashOrder) (ok : Nat → Bool)

/-- Effect of one operation (each case is the function of that name above; not from the repository). -/
def Node.step {S : Type} (b : Build) (n : Node S) : Op S → Res (Node S × List Out)
  | .addObject o => do
    let n ← n.addObject b o
    pure (n, [])
  | .addHandler h => .ok (n.addRequestHandler h, [])
  | .addObserver o => .ok (n.addObserver o, [])
  | .send to msg ok => let r := n.sendMessage ok to msg; .ok (r.2.2.1, r.2.2.2)
  | .post to msg ok => let r := n.postMessage ok to msg; .ok (r.2.2.1, r.2.2.2)
  | .notify msg ok => let r := n.notify ok msg; .ok (r.2.2.1, r.2.2.2)
  | .announceProperty obj prop ok => let r := n.announceProperty ok obj prop; .ok (r.2.1, r.2.2)
  | .announce ok => let r := n.announce ok; .ok (r.2.1, r.2.2)
  | .start menv uenv ok => do
    let r ← n.start menv uenv ok
    pure (r.2.1, r.2.2)
  | .stop => do
    let r ← n.stop
    pure (r.2, [])
  | .setProperty oc c d => .ok ((n.setProperty oc c d).2, [])
  | .edit oc f => .ok (n.editObject oc f, [])
  | .receive msg free ω ok => n.observeTry b ω ok free msg

/-- Effect of a sequence of operations (not from the repository). -/
def Node.run {S : Type} (b : Build) (n : Node S) : List (Op S) → Res (Node S × List Out)
  | [] => .ok (n, [])
  | op :: ops => do
    let r ← n.step b op
    let r' ← Node.run b r.1 ops
    pure (r'.1, r.2 ++ r'.2)

end Uecho
