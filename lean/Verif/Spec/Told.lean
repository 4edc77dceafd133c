import Verif.Spec.Carried
import Verif.Spec.Observers
/-!
# Specification vocabulary: notifications on a network (C98)

`Prompt`, `Fits`, `SentAs`, `SameContents` are in `Spec/Answered.lean` and `Spec/Carried.lean`, `users` in
`Spec/Observers.lean`.
-/
namespace Uecho.Spec
variable {S : Type}

/-- The call sends out the message `m`: to all nodes (`Node::notify`, `Node::annouce_property`) or to one
(`Node::send_message`, `Controller::send_message`, which sets the source object). -/
inductive Publishes : HostOp S → Message → Prop where
  | notify (m : Message) (ok : Nat → Bool) : Publishes (.node (.notify m ok)) m
  | announce (obj : Object) (prop : Property) (ok : Nat → Bool) :
      Publishes (.node (.announceProperty obj prop ok)) (Node.announceMessage obj prop)
  | nodeSend (to : SocketAddr) (m : Message) (ok : Nat → Bool) : Publishes (.node (.send to m ok)) m
  | send (r : RemoteNode) (m : Message) (free : Bool) (ok : Nat → Bool) :
      Publishes (.send r m free ok) (m.setSeoj profileCode)

/-- On a network at rest on which no observer has panicked, the application of host `i` sends out the message `m`, which is a
notification or another response, and fits into a frame and the receive buffer. -/
structure Tells (b : Build) (db : Database) (n₀ : Net S) (i : Nat) (m : Message) (outs : List Out) (n₁ : Net S) : Prop where
  flying : n₀.flying = []
  busy : n₀.busy = []
  sound : ∀ k o, n₀.poisoned k o = false
  format : m.isFormat1 = true
  service : isResponseByte m.esvByte = true
  not5E : m.esvByte ≠ 0x5E
  call : ∃ op, Publishes op m ∧ Net.Api b db n₀ i op outs n₁
  fits : ∀ g u, Out.handed g u ∈ outs → Fits u

/-- The observers of the application that are registered with receiver thread `k` of the host, once for each registration, if
the thread runs. -/
def listenersOf (h : Host S) (k : Nat) : List Nat :=
  match h.threads[k]? with
  | some s => match s.thread with
    | .running => users s.observers
    | _ => []
  | none => []

/-- Who has to be told at host `j` about the datagrams that the network delivers: each observer of the application
registered with the thread a copy arrives at, and the address it came from. -/
def toTell (n : Net S) (j : Nat) : List (Nat × SocketAddr) :=
  (n.flying.filter (fun p => p.host == j)).flatMap (fun p => (listenersOf (n.hosts j) p.srv).map (fun k => (k, p.src)))

end Uecho.Spec
