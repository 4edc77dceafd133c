import Verif.Spec.Exchange
import Verif.Spec.Crash
/-!
# Specification vocabulary for the containment of faults on a network (C82)
-/
namespace Uecho.Spec
variable {S : Type}

/-- All executions from `n₀` in which the application of each host makes only calls that satisfy `rule`. -/
inductive Reached (b : Build) (db : Database) (rule : Nat → HostOp S → Prop) (n₀ : Net S) : Net S → Prop where
  | init : Reached b db rule n₀ n₀
  | internal {n n' : Net S} {i : Nat} {outs : List Out} (hx : Reached b db rule n₀ n)
      (hs : Net.Internal b db n i outs n') : Reached b db rule n₀ n'
  | api {n n' : Net S} {i : Nat} {op : HostOp S} {outs : List Out} (hx : Reached b db rule n₀ n)
      (hs : Net.Api b db n i op outs n') (hr : rule i op) : Reached b db rule n₀ n'

/-- The call does not stop the node. -/
def NotStop : HostOp S → Prop
  | .stop => False
  | .node .stop => False
  | _ => True

/-- The host is running: it has a unicast and a multicast server. -/
def Up (n : Net S) (j : Nat) : Prop := (n.hosts j).node.transport.ucast ≠ [] ∧ (n.hosts j).node.transport.mcast ≠ []

/-- Thread `k` of host `j` is about to die: a poisonous datagram lies in its socket. -/
def Poisoned (n : Net S) (j k : Nat) : Prop :=
  ∃ p ∈ n.flying, p.host = j ∧ p.srv = k ∧
    ∃ tid seoj deoj esv s, tid < 2 ^ 16 ∧ seoj < 2 ^ 24 ∧ deoj < 2 ^ 24 ∧ isWriteReadByte esv = true ∧
      InRange s ∧ p.bytes.take 1024 = [0x10, 0x81] ++ be 2 tid ++ be 3 seoj ++ be 3 deoj ++ [esv] ++ encList s

/-- Thread `k` of host `j` is about to die: it is in the middle of a message on which an observer that it still has to
call can panic. -/
def Cursed (b : Build) (db : Database) (n : Net S) (j k : Nat) : Prop :=
  ∃ q ∈ n.busy, q.host = j ∧ q.srv = k ∧ ∃ o ∈ q.todo, ∃ e : CallEnv, (∀ i, (e.uuid i).length = 16) ∧
    (n.hosts j).invoke b db e q.msg o = .panic

/-- Thread `k` of host `j` is about to die: an observer that it still has to call has panicked before, in whichever thread
of the same host. -/
def Infected (n : Net S) (j k : Nat) : Prop :=
  ∃ q ∈ n.busy, q.host = j ∧ q.srv = k ∧ ∃ o ∈ q.todo, n.poisoned j o = true

/-- Thread `k` of host `j` has received an error response of service 0x5E with the last TID of its node, and the node
has still to look at it. -/
def Answered5E (n : Net S) (j k : Nat) : Prop :=
  ∃ q ∈ n.busy, q.host = j ∧ q.srv = k ∧ ObserverRef.node ∈ q.todo ∧ q.msg.esvByte = 0x5E ∧
    q.msg.tid = (n.hosts j).node.lastTid

/-- The call leaves the objects of the node with valid property codes. -/
def KeepsValid (b : Build) : HostOp S → Prop
  | .node (.addObject o) => ValidObject b o
  | .node (.edit _ f) => ∀ o, ValidObject b o → ValidObject b (f o)
  | _ => True

end Uecho.Spec
