import Verif.Spec.Answered
/-!
# Specification vocabulary: sessions of remote calls (C85)

`Posts`, `Prompt`, `Running` and `Fits` are in `Spec/Answered.lean`; `Access`, `valuesAfter` and `Values.Shown` in
`Spec/Linear.lean`.
-/
namespace Uecho.Spec
variable {S : Type}

/-- What happens in a session: host `i` posts the request `m` to host `j` and receives `answers` (with the numbers of the
channels they arrive on) before anything else happens; or the application of host `k` sets a value of its own object. -/
inductive Happening where
  | called (i j : Nat) (m : Message) (answers : List (Nat × Message))
  | set (k : Nat) (oc : UInt32) (c : UInt8) (d : List UInt8)

/-- Executions in which requests are posted one after the other, by any hosts to any hosts (possibly themselves): each call is made on the
network at rest and everything it causes has come to rest before the next thing happens. The network loses nothing and
delivers nothing to a wrong host, but delays, reorders and repeats datagrams. No message is too large for a frame or for the
receive buffer. -/
inductive Session (b : Build) (db : Database) (own : IpAddr → Option Nat) (n₀ : Net S) : List Happening → Net S → Prop where
  | start : Session b db own n₀ [] n₀
  | call {l : List Happening} {n n₁ n₂ : Net S} {i j : Nat} {m : Message} {op : HostOp S} {to : IpAddr} {outs : List Out}
      {tr : List (Nat × Out)} (h : Session b db own n₀ l n)
      (format : m.isFormat1 = true) (service : m.esvByte = 0x61 ∨ m.esvByte = 0x62) (noTid : m.tid = 0)
      (post : Posts op to m) (address : own to = some j) (call : Net.Api b db n i op outs n₁)
      (delivered : Delivered own n outs n₁.flying) (routed : Routed own n outs n₁)
      (run : Prompt b db own n₁ tr n₂) (rest : n₂.flying = [] ∧ n₂.busy = [])
      (fits : ∀ k g u, (k, Out.handed g u) ∈ outs.map (fun o => (i, o)) ++ tr → Fits u) :
      Session b db own n₀ (l ++ [.called i j m (deliveries (outsOf i tr))]) n₂
  | set {l : List Happening} {n n' : Net S} {outs : List Out} (k : Nat) (oc : UInt32) (c : UInt8) (d : List UInt8)
      (h : Session b db own n₀ l n) (call : Net.Api b db n k (.node (.setProperty oc c d)) outs n') :
      Session b db own n₀ (l ++ [.set k oc c d]) n'

/-- The accesses to the objects of host `k`, in the order in which the calls were made. -/
def accesses (k : Nat) (l : List Happening) : List Access := l.filterMap (fun
  | .called _ j m _ => if j = k then some (.request m) else none
  | .set k' oc c d => if k' = k then some (.set oc c d) else none)

/-- The number of requests posted by host `i`. -/
def callsOf (i : Nat) (l : List Happening) : Nat := (l.filterMap (fun
  | .called i' _ _ _ => if i' = i then some () else none
  | .set _ _ _ _ => none)).length

/-- The answer `a` to the read or write request `m` says what the object with definitions `o`, values `v` and handlers `hs`
says: it is done if the definitions of the object allow it and a handler approves of it; a read shows the values, a write
confirms the properties. -/
structure Answer (hs : List (Handler S)) (o : Object) (v : Values) (m a : Message) : Prop where
  done : Allowed o m ∧ Approved hs o m → successByte m.esvByte = some a.esvByte
  refused : ¬ (Allowed o m ∧ Approved hs o m) → a.esvByte = errorByte m.esvByte
  read : a.esvByte = 0x72 → m.esvByte = 0x62 ∧ v.Shown m.properties a.properties
  wrote : a.esvByte = 0x71 → m.esvByte = 0x61 ∧ a.properties = ackOf m.properties

/-- A network at rest on which sessions can begin: objects are filed properly under valid codes, and request handlers do
not modify objects and decide by service, property and object definition. -/
structure Ready (b : Build) (own : IpAddr → Option Nat) (n : Net S) : Prop where
  rest : AtRest own n
  objects : ∀ k, ∀ o ∈ (n.hosts k).node.objects, KeysOk o ∧ ValidObject b o
  handlers : ∀ k, ∀ h ∈ (n.hosts k).node.handlers, Passive h ∧ Stateless h

end Uecho.Spec
