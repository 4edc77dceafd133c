import Verif.Spec.Exchange
import Verif.Spec.Handlers
/-!
# Specification vocabulary: one order of all accesses to the objects of a host (C83)

`Values`, `Values.write`, `Values.judgedStep` (one request to a device seen as a map of values) and `Reads`, `Answers` (what
a receiver finds in a datagram, which datagram answers which) are in `Spec/Request.lean`, `Spec/Handlers.lean` and
`Spec/Exchange.lean`.
-/
namespace Uecho.Spec
variable {S : Type}

/-- What is written down about an execution: something host `i` put out, or a value the application of host `i` set in an
object of its node. -/
inductive Entry where
  | put (i : Nat) (o : Out)
  | set (i : Nat) (oc : UInt32) (c : UInt8) (d : List UInt8)

/-- What is written down about a call of the application of host `i` (besides what it puts out). -/
def setBy (i : Nat) : HostOp S → List Entry
  | .node (.setProperty oc c d) => [.set i oc c d]
  | _ => []

/-- The application sets values and sends what it likes, but neither adds objects or handlers, nor changes its objects in
other ways, nor starts or stops the node. -/
def Steady : HostOp S → Prop
  | .node (.addObject _) => False
  | .node (.addHandler _) => False
  | .node (.edit _ _) => False
  | .node (.start _ _ _) => False
  | .node .stop => False
  | .start _ _ _ => False
  | .stop => False
  | _ => True

/-- All executions from `n₀` in which the applications leave answering to the library and the one of host `j` is steady,
with the log of everything that was put out, by whom, and of the values set at all hosts. -/
inductive Logged (b : Build) (db : Database) (own : IpAddr → Option Nat) (j : Nat) (n₀ : Net S) :
    List Entry → Net S → Prop where
  | init : Logged b db own j n₀ [] n₀
  | internal {log : List Entry} {n n' : Net S} {i : Nat} {outs : List Out} (hx : Logged b db own j n₀ log n)
      (hs : Net.Internal b db n i outs n') (hr : Routed own n outs n') :
      Logged b db own j n₀ (log ++ outs.map (.put i)) n'
  | api {log : List Entry} {n n' : Net S} {i : Nat} {op : HostOp S} {outs : List Out}
      (hx : Logged b db own j n₀ log n) (hs : Net.Api b db n i op outs n') (hr : Routed own n outs n')
      (ho : OwnInterfaces own i op) (hp : NoAnswers op) (hj : i = j → Steady op) :
      Logged b db own j n₀ (log ++ (setBy i op ++ outs.map (.put i))) n'

/-- An access to the objects of a host: a request message it took from a datagram, or a value set by its application. -/
inductive Access where
  | request (m : Message)
  | set (oc : UInt32) (c : UInt8) (d : List UInt8)

/-- The values of the object with definitions `o` after one access. -/
noncomputable def Values.access (hs : List (Handler S)) (o : Object) (v : Values) : Access → Values
  | .request m => v.judgedStep hs o m
  | .set oc c d => if oc = o.code then v.write [⟨c, d⟩] else v

/-- The values of `o` after some accesses in a given order. -/
noncomputable def valuesAfter (hs : List (Handler S)) (o : Object) (l : List Access) : Values :=
  l.foldl (Values.access hs o) (valuesOf o)

/-- The properties `qs` have the codes of `ps` and the values in `v` (the property maps 0x9D to 0x9F are not said to). -/
def Values.Shown (v : Values) (ps qs : List WProperty) : Prop :=
  qs.map (fun q => q.code) = ps.map (fun p => p.code) ∧
  ∀ q ∈ qs, isMapCode q.code = false → v q.code = some q.data

/-- The answer `u` says what the values `v` after the request `req` say. -/
structure Reports (hs : List (Handler S)) (o : Object) (v : Values) (req u : Message) : Prop where
  done : Allowed o req ∧ Approved hs o req → successByte req.esvByte = some u.esvByte
  refused : ¬ (Allowed o req ∧ Approved hs o req) → u.esvByte = errorByte req.esvByte
  /-- read responses show the values -/
  read : req.esvByte = 0x62 → u.esvByte = 0x72 → v.Shown req.properties u.properties
  /-- write responses confirm the properties written -/
  wrote : req.esvByte = 0x61 → u.esvByte = 0x71 → u.properties = ackOf req.properties
  both : req.esvByte = 0x6E → u.esvByte = 0x7E →
    u.setProperties = ackOf req.setProperties ∧ v.Shown req.getProperties u.getProperties
  /-- the other lists are empty -/
  single : successByte req.esvByte = some u.esvByte → req.esvByte ≠ 0x6E → u.setProperties = [] ∧ u.getProperties = []
  format : u.isFormat1 = true

/-- The local sets of host `j` in a log, with their positions. -/
def setsIn (j : Nat) (log : List Entry) : List (Nat × UInt32 × UInt8 × List UInt8) :=
  log.zipIdx.filterMap (fun x => match x.1 with
    | .set i oc c d => if i = j then some (x.2, oc, c, d) else none
    | .put _ _ => none)

/-- The local sets among accesses. -/
def setsOf (l : List (Nat × Access)) : List (Nat × UInt32 × UInt8 × List UInt8) :=
  l.filterMap (fun x => match x.2 with
    | .set oc c d => some (x.1, oc, c, d)
    | .request _ => none)

/-- `l` is an order of accesses that explains what host `j`, with objects `objs` and handlers `hs` at the beginning, put
out in `log`. Each access has a moment: the number of log entries written before it. -/
structure Explains (own : IpAddr → Option Nat) (hs : List (Handler S)) (objs : List Object) (j : Nat) (log : List Entry)
    (l : List (Nat × Access)) : Prop where
  /-- the accesses are in the order of their moments -/
  ordered : l.Pairwise (fun x y => x.1 ≤ y.1)
  /-- every request was put out by some host before its moment, and not addressed to another host -/
  heard : ∀ t m, (t, Access.request m) ∈ l → ∃ k r, Entry.put k (.tx r) ∈ log.take t ∧ Reads m r.bytes ∧ (frameOf m).Valid ∧
    m.sender.ip = r.iface ∧ ∀ j', own r.to.ip = some j' → j = j'
  /-- the local accesses are exactly what the application set, when it set it -/
  sets : setsOf l = setsIn j log
  /-- every answer reports one access that happened before it and after the datagram it answers -/
  answers : ∀ t a, log[t]? = some (.put j (.tx a)) → (∃ e, a.bytes[10]? = some e ∧ isAnswerByte e = true) →
    ∃ l₁ t' req l₂ k r u o, l = l₁ ++ (t', .request req) :: l₂ ∧ t' ≤ t ∧ Entry.put k (.tx r) ∈ log.take t' ∧
      Answers a r ∧ Reads req r.bytes ∧ req.sender.ip = r.iface ∧ a.bytes = u.bytes ∧ (∃ g, Entry.put j (.handed g u) ∈ log) ∧
      findObject objs req.deoj = some o ∧
      Reports hs o (valuesAfter hs o (l₁.map (fun x => x.2) ++ [.request req])) req u

end Uecho.Spec
