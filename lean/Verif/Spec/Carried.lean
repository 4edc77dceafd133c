import Verif.Spec.Answered
import Verif.Spec.Request
/-!
# Specification vocabulary: requests sent are carried out (C97)

`Reliable`, `Delivered`, `Prompt`, `Running`, `Fits` and `AtRest` are in `Spec/Network.lean`, `Spec/Answered.lean` and
`Spec/Exchange.lean`; `Arrival`, `arrivals` in `Spec/Request.lean`.
-/
namespace Uecho.Spec
variable {S : Type}

/-- The call transmits the message `m` to the address `to`, with or without a channel for an answer, with working sockets
(`Node::send_message`, `Node::post_message`, or those of `Controller`, which set the source object). -/
inductive Transmits : HostOp S → IpAddr → Message → Prop where
  | nodeSend (to : SocketAddr) (m : Message) (ok : Nat → Bool) (hok : ∀ k, ok k = true) :
      Transmits (.node (.send to m ok)) to.ip m
  | nodePost (to : SocketAddr) (m : Message) (ok : Nat → Bool) (hok : ∀ k, ok k = true) :
      Transmits (.node (.post to m ok)) to.ip m
  | send (r : RemoteNode) (m : Message) (ok : Nat → Bool) (hok : ∀ k, ok k = true) :
      Transmits (.send r m true ok) r.addr.ip (m.setSeoj profileCode)
  | post (r : RemoteNode) (m : Message) (ok : Nat → Bool) (hok : ∀ k, ok k = true) :
      Transmits (.post r m ok) r.addr.ip (m.setSeoj profileCode)

/-- The message `q` is `m`, up to a TID assigned when it was sent and to property lists that messages with this service do
not transmit. -/
structure SentAs (m q : Message) : Prop where
  frame : frameOf q = { frameOf m with tid := q.tid.toNat }
  tid : m.tid ≠ 0 → q.tid = m.tid
  single : isWriteReadByte m.esvByte = false → q.setProperties = [] ∧ q.getProperties = []
  double : isWriteReadByte m.esvByte = true → q.properties = []

/-- On a network at rest, host `i`, which has a unicast server, transmits the request `m`, for whatever object and with or
without a TID of its own, to an address of a running host `j` (also one of its own), and the network takes the datagram. `outs` is what the
call put out. -/
structure Requests (b : Build) (db : Database) (own : IpAddr → Option Nat) (n₀ : Net S) (i j : Nat) (m : Message)
    (outs : List Out) (n₁ : Net S) : Prop where
  rest : AtRest own n₀
  sends : (n₀.hosts i).node.transport.ucast ≠ []
  asked : Running n₀ j
  objects : ∀ o ∈ (n₀.hosts j).node.objects, ValidObject b o
  format : m.isFormat1 = true
  service : isRequestByte m.esvByte = true
  call : ∃ op to, Transmits op to m ∧ own to = some j ∧ Net.Api b db n₀ i op outs n₁
  delivered : Delivered own n₀ outs n₁.flying
  routed : Routed own n₀ outs n₁
  fits : ∀ g u, Out.handed g u ∈ outs → Fits u

/-- The two nodes have the same objects, the same request handlers, and these handlers the same state. -/
def SameContents (n n' : Node S) : Prop := n.objects = n'.objects ∧ n.handlers = n'.handlers ∧ n.app = n'.app

end Uecho.Spec
