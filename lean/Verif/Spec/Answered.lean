import Verif.Spec.Linear
import Verif.Spec.Crash
/-!
# Specification vocabulary: posted requests get their answers (C84)

`Reliable` (steps with nothing lost, working sockets and no mutex held by an application) and `Delivered` are in
`Spec/Network.lean`; `Reads`, `Answers`, `Routed`, `AtRest` in `Spec/Exchange.lean`.
-/
namespace Uecho.Spec
variable {S : Type}

/-- Finite reliable executions in which nothing is delivered to a wrong host, with everything that was put out, in order,
and by whom. -/
inductive Prompt (b : Build) (db : Database) (own : IpAddr → Option Nat) : Net S → List (Nat × Out) → Net S → Prop where
  | refl (n : Net S) : Prompt b db own n [] n
  | step {n n₁ n₂ : Net S} {tr : List (Nat × Out)} {i : Nat} {outs : List Out} (h : Prompt b db own n tr n₁)
      (h' : Reliable b db own n₁ i outs n₂) (hr : Routed own n₁ outs n₂) :
      Prompt b db own n (tr ++ outs.map (fun o => (i, o))) n₂

/-- Host `i` runs: it has a unicast server, some receiver thread takes datagrams, and every receiver thread calls the node
first (`DeviceNode` and `ControllerNode` register the node before anything else); no observer of the host has panicked so
far (see C82). -/
structure Running (n : Net S) (i : Nat) : Prop where
  listens : ∃ k, Listening n i k
  sends : (n.hosts i).node.transport.ucast ≠ []
  calls : ∀ s ∈ (n.hosts i).threads, s.observers.head? = some .node
  sound : ∀ o, n.poisoned i o = false

/-- The message fits into a frame and the frame into the receive buffer of 1024 bytes. -/
def Fits (u : Message) : Prop := SizesOk u ∧ u.bytes.length ≤ 1024

/-- The call posts the message `m` to the address `to` (`Node::post_message`, or `Controller::post_message`, which sets
the source object), with working sockets. -/
inductive Posts : HostOp S → IpAddr → Message → Prop where
  | node (to : SocketAddr) (m : Message) (ok : Nat → Bool) (hok : ∀ k, ok k = true) : Posts (.node (.post to m ok)) to.ip m
  | controller (r : RemoteNode) (m : Message) (ok : Nat → Bool) (hok : ∀ k, ok k = true) :
      Posts (.post r m ok) r.addr.ip (m.setSeoj profileCode)

/-- On a network at rest, host `i` posts the read or write request `m` to an address of host `j` (possibly itself), both are running,
`j` has the object the request is for, and the network takes the datagram. The message has no TID of its own, and the TIDs
of host `i` do not wrap around just now (see C28). `outs` is what the call put out. -/
structure AsksFor (b : Build) (db : Database) (own : IpAddr → Option Nat) (n₀ : Net S) (i j : Nat) (m : Message)
    (outs : List Out) (n₁ : Net S) : Prop where
  rest : AtRest own n₀
  asker : Running n₀ i
  asked : Running n₀ j
  objects : ∀ o ∈ (n₀.hosts j).node.objects, KeysOk o ∧ ValidObject b o
  target : ∃ o ∈ (n₀.hosts j).node.objects, o.code = m.deoj
  format : m.isFormat1 = true
  service : m.esvByte = 0x61 ∨ m.esvByte = 0x62
  noTid : m.tid = 0
  noWrap : (n₀.hosts i).node.lastTid ≠ 0xFFFF
  call : ∃ op to, Posts op to m ∧ own to = some j ∧ Net.Api b db n₀ i op outs n₁
  delivered : Delivered own n₀ outs n₁.flying
  routed : Routed own n₀ outs n₁

end Uecho.Spec
