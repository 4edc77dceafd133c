import Verif.Spec.Network
/-!
# Specification vocabulary for requests and answers on a network (C76)

Everything is said about the datagrams on the wire.
-/
namespace Uecho.Spec
variable {S : Type}

/-- The transaction ID in a datagram (bytes 2 and 3 of a frame). -/
def wireTid (bs : List UInt8) : Nat := beVal ((bs.drop 2).take 2)
/-- The source object in a datagram (bytes 4 to 6). -/
def wireSeoj (bs : List UInt8) : Nat := beVal ((bs.drop 4).take 3)
/-- The destination object in a datagram (bytes 7 to 9). -/
def wireDeoj (bs : List UInt8) : Nat := beVal ((bs.drop 7).take 3)

/-- The services of answers to a single node: all responses but notifications. -/
def isAnswerByte (e : UInt8) : Bool := isResponseByte e && !isNotificationByte e

/-- Datagram `a` answers datagram `r`: it goes to the sender of `r`, with the TID of `r` (unless that is 0, see C28),
the objects exchanged, and a service that is a response to the one of `r`. -/
structure Answers (a r : Tx) : Prop where
  to : a.to.ip = r.iface
  tid : wireTid r.bytes ≠ 0 → wireTid a.bytes = wireTid r.bytes
  seoj : wireSeoj a.bytes = wireDeoj r.bytes
  deoj : wireDeoj a.bytes = wireSeoj r.bytes
  service : ∃ e, r.bytes[10]? = some e ∧ isRequestByte e = true ∧
    (a.bytes[10]? = successByte e ∨ a.bytes[10]? = some (errorByte e))

/-- The message is what a receiver reads in a datagram with these bytes (the receive buffer has 1024 bytes). -/
def Reads (m : Message) (bs : List UInt8) : Prop := ∃ rest, bs.take 1024 = (frameOf m).encode ++ rest

/-- The network delivers the new datagrams of `n'`, put out by `outs`, to no wrong host. -/
def Routed (own : IpAddr → Option Nat) (n : Net S) (outs : List Out) (n' : Net S) : Prop :=
  ∀ p ∈ n'.flying, p ∈ n.flying ∨ ∃ t, Out.tx t ∈ outs ∧ p.bytes = t.bytes ∧ p.src.ip = t.iface ∧
    ∀ j, own t.to.ip = some j → p.host = j

/-- The interfaces a host is started on have addresses of its own. -/
def OwnInterfaces (own : IpAddr → Option Nat) (i : Nat) : HostOp S → Prop
  | .node (.start menv uenv _) => ∀ e ∈ menv ++ uenv, own e.addr = some i
  | .start menv uenv _ => ∀ e ∈ menv ++ uenv, own e.addr = some i
  | _ => True

/-- The application leaves answering to the library. -/
def NoAnswers : HostOp S → Prop
  | .node (.send _ m _) => isAnswerByte m.esvByte = false
  | .node (.post _ m _) => isAnswerByte m.esvByte = false
  | .node (.notify m _) => isAnswerByte m.esvByte = false
  | .send _ m _ _ => isAnswerByte m.esvByte = false
  | .post _ m _ => isAnswerByte m.esvByte = false
  | _ => True

/-- All executions from `n₀` of applications that make only calls satisfying `rule`, with everything that was put out
so far, in order, and by whom. -/
inductive Traced (b : Build) (db : Database) (own : IpAddr → Option Nat) (rule : HostOp S → Prop) (n₀ : Net S) :
    List (Nat × Out) → Net S → Prop where
  | init : Traced b db own rule n₀ [] n₀
  | internal {tr : List (Nat × Out)} {n n' : Net S} {i : Nat} {outs : List Out} (hx : Traced b db own rule n₀ tr n)
      (hs : Net.Internal b db n i outs n') (hr : Routed own n outs n') :
      Traced b db own rule n₀ (tr ++ outs.map (fun o => (i, o))) n'
  | api {tr : List (Nat × Out)} {n n' : Net S} {i : Nat} {op : HostOp S} {outs : List Out}
      (hx : Traced b db own rule n₀ tr n) (hs : Net.Api b db n i op outs n') (hr : Routed own n outs n')
      (ho : OwnInterfaces own i op) (hp : rule op) : Traced b db own rule n₀ (tr ++ outs.map (fun o => (i, o))) n'

/-- A network at rest whose running hosts use their own addresses. -/
structure AtRest (own : IpAddr → Option Nat) (n : Net S) : Prop where
  flying : n.flying = []
  busy : n.busy = []
  own : ∀ i, ∀ s ∈ (n.hosts i).threads, own s.ifaddr = some i

/-- What one host put out. -/
def outsOf (i : Nat) (tr : List (Nat × Out)) : List Out := (tr.filter (fun x => x.1 == i)).map (fun x => x.2)

end Uecho.Spec
