import Verif.Model.Host
/-!
# Several hosts on one network

The composition of the hosts of `Verif/Model/Host.lean`: every receiver thread (one per server,
src/transport/unicast_server.rs:102-150, src/transport/multicast_server.rs:136-185) takes one datagram at a time,
decodes it and calls the observers of its server one after the other; the threads of all hosts and the applications
interleave in any order. The network itself (UDP) is the environment: it loses, delays, reorders and duplicates
datagrams and decides which receivers get a copy, but never invents or alters one.
-/
namespace Uecho
variable {S : Type}

/-- A copy of a datagram on its way to a receiver thread: the `srv`-th server (unicast servers first) of a host. -/
structure Packet where
  src : SocketAddr
  host : Nat
  srv : Nat
  bytes : List UInt8

/-- A receiver thread inside `notifier.notify(msg)` (src/transport/notify_manager.rs:48-54) with the observers it still
has to call. The notifier is locked meanwhile, so the list of observers is the one at the beginning. -/
structure Busy where
  host : Nat
  srv : Nat
  msg : Message
  todo : List ObserverRef

/-- All hosts, the datagrams under way and the busy receiver threads. `poisoned i o`: a thread of host `i` has panicked
inside observer `o`, which poisoned the mutex of that observer (`ObserverObject`, src/transport/observer.rs:25) and the mutex
of the node or controller behind it. All servers of a node share its observers (src/node.rs:191-193). `wild i`: the
application of host `i` has written request handlers or observers that may panic (a parameter; no step changes it). -/
structure Net (S : Type) where
  hosts : Nat → Host S
  flying : List Packet
  busy : List Busy
  poisoned : Nat → ObserverRef → Bool := fun _ _ => false
  wild : Nat → Bool := fun _ => false

/-- The servers of a host; the index identifies a receiver thread. -/
def Host.threads (h : Host S) : List Server := h.node.transport.ucast ++ h.node.transport.mcast

/-- The `i`-th receiver thread dies from a panic (see `ThreadState`). -/
def Host.killThread (h : Host S) (i : Nat) : Host S :=
  let kill := fun s : Server => { s with thread := .panicked }
  { h with node := { h.node with transport :=
    ⟨h.node.transport.ucast.modify i kill,
     if i < h.node.transport.ucast.length then h.node.transport.mcast
     else h.node.transport.mcast.modify (i - h.node.transport.ucast.length) kill⟩ } }

/-- Code of the application panics inside an observer called with `msg`; the host afterwards. Either a request handler,
called for a request that has passed the checks (src/node.rs:388-394): it works on a copy of the object, so the node is as
before and only the state of the application may have changed (`C94_panic` proves this of a model with handlers that panic);
or an observer of the application, which has been called. -/
inductive Host.AppPanics (h : Host S) (msg : Message) : ObserverRef → Host S → Prop where
  | handler (dst : Object) (s : S) (hd : findObject h.node.objects msg.deoj = some dst) (hr : msg.esv.isRequest = true)
      (hv : Node.validRequest dst msg = true) :
      Host.AppPanics h msg .node { h with node := { h.node with app := s } }
  | observer (k : Nat) : Host.AppPanics h msg (.user k) { h with seen := h.seen ++ [(k, msg)] }

namespace Net

/-- Replace one host. -/
def setHost (n : Net S) (i : Nat) (h : Host S) : Net S :=
  { n with hosts := fun j => if j = i then h else n.hosts j }

/-- A thread of host `i` panics inside observer `o`. -/
def poison (n : Net S) (i : Nat) (o : ObserverRef) : Net S :=
  { n with poisoned := fun j o' => if j = i ∧ o' = o then true else n.poisoned j o' }

/-- One round of the receive loop for the datagram `p` on the server `s` (src/transport/unicast_server.rs:107-146,
src/transport/multicast_server.rs:141-180; the decoding is `recvLoop`): a well-formed datagram makes the thread busy, a
malformed one is ignored, a poisonous one kills the thread. `rest` are the other datagrams. -/
def received (n : Net S) (p : Packet) (s : Server) (rest : List Packet) : Net S :=
  match recvLoop [.datagram p.bytes p.src] with
  | (m :: _, _) => { n with flying := rest, busy := n.busy ++ [⟨p.host, p.srv, m, s.observers⟩] }
  | ([], .panicked) => { n.setHost p.host ((n.hosts p.host).killThread p.srv) with flying := rest }
  | ([], _) => { n with flying := rest }

/-- The datagrams `ps` are copies of datagrams put out by `outs`: same bytes, sent from the address of the interface
of the sending server. Copies may be missing or repeated, at any receivers. -/
def CopiesOf (outs : List Out) (ps : List Packet) : Prop :=
  ∀ p ∈ ps, ∃ t, Out.tx t ∈ outs ∧ p.bytes = t.bytes ∧ p.src.ip = t.iface

/-- One step of the network or of a receiver thread (no step of an application): the host concerned and what it put
out. UUIDs have 16 bytes (`Uuid::into_bytes`, src/util/oid.rs:41). -/
inductive Internal (b : Build) (db : Database) (n : Net S) : Nat → List Out → Net S → Prop where
  /-- a datagram is lost -/
  | lose (l₁ l₂ : List Packet) (p : Packet) (hf : n.flying = l₁ ++ p :: l₂) :
      Internal b db n p.host [] { n with flying := l₁ ++ l₂ }
  /-- an idle receiver thread takes a datagram -/
  | receive (l₁ l₂ : List Packet) (p : Packet) (s : Server) (hf : n.flying = l₁ ++ p :: l₂)
      (hs : (n.hosts p.host).threads[p.srv]? = some s) (hr : s.thread = .running)
      (hidle : ∀ q ∈ n.busy, ¬ (q.host = p.host ∧ q.srv = p.srv)) :
      Internal b db n p.host [] (n.received p s (l₁ ++ l₂))
  /-- a busy receiver thread calls its next observer -/
  | call (l₁ l₂ : List Busy) (q : Busy) (o : ObserverRef) (os : List ObserverRef) (e : CallEnv) (h' : Host S)
      (outs : List Out) (ps : List Packet) (hb : n.busy = l₁ ++ q :: l₂) (ht : q.todo = o :: os)
      (hp : n.poisoned q.host o = false) (hu : ∀ i, (e.uuid i).length = 16)
      (hi : (n.hosts q.host).invoke b db e q.msg o = .ok (h', outs)) (hps : CopiesOf outs ps) :
      Internal b db n q.host outs { n.setHost q.host h' with
        flying := n.flying ++ ps, busy := l₁ ++ { q with todo := os } :: l₂ }
  /-- the observer panics and the receiver thread dies -/
  | die (l₁ l₂ : List Busy) (q : Busy) (o : ObserverRef) (os : List ObserverRef) (e : CallEnv)
      (hb : n.busy = l₁ ++ q :: l₂) (ht : q.todo = o :: os) (hp : n.poisoned q.host o = false)
      (hu : ∀ i, (e.uuid i).length = 16) (hi : (n.hosts q.host).invoke b db e q.msg o = .panic) :
      Internal b db n q.host []
        { (n.setHost q.host ((n.hosts q.host).killThread q.srv)).poison q.host o with busy := l₁ ++ l₂ }
  /-- code of the application panics inside the observer and the receiver thread dies -/
  | crash (l₁ l₂ : List Busy) (q : Busy) (o : ObserverRef) (os : List ObserverRef) (h' : Host S)
      (hb : n.busy = l₁ ++ q :: l₂) (ht : q.todo = o :: os) (hp : n.poisoned q.host o = false)
      (hw : n.wild q.host = true) (ha : Host.AppPanics (n.hosts q.host) q.msg o h') :
      Internal b db n q.host []
        { (n.setHost q.host (h'.killThread q.srv)).poison q.host o with busy := l₁ ++ l₂ }
  /-- `observer.lock().unwrap()` (src/transport/notify_manager.rs:50) on a poisoned mutex: the thread dies as well -/
  | infected (l₁ l₂ : List Busy) (q : Busy) (o : ObserverRef) (os : List ObserverRef) (hb : n.busy = l₁ ++ q :: l₂)
      (ht : q.todo = o :: os) (hp : n.poisoned q.host o = true) :
      Internal b db n q.host [] { n.setHost q.host ((n.hosts q.host).killThread q.srv) with busy := l₁ ++ l₂ }
  /-- if the server has several observers of this kind (each device made on a node registers the node once more), the mutex
  of this one may be intact, but behind it is the same poisoned node, on which `try_lock` fails -/
  | skip (l₁ l₂ : List Busy) (q : Busy) (o : ObserverRef) (os : List ObserverRef) (hb : n.busy = l₁ ++ q :: l₂)
      (ht : q.todo = o :: os) (hp : n.poisoned q.host o = true)
      (hm : ∀ s, (n.hosts q.host).threads[q.srv]? = some s → 2 ≤ s.observers.count o) :
      Internal b db n q.host [] { n with busy := l₁ ++ { q with todo := os } :: l₂ }
  /-- all observers have been called; the thread waits for the next datagram -/
  | done (l₁ l₂ : List Busy) (q : Busy) (hb : n.busy = l₁ ++ q :: l₂) (ht : q.todo = []) :
      Internal b db n q.host [] { n with busy := l₁ ++ l₂ }

/-- The calls an application can make on a host (`HostOp` without the calls made by receiver threads). -/
def IsApi : HostOp S → Prop
  | .call _ _ _ => False
  | .node (.receive _ _ _ _) => False
  | _ => True

/-- A call of the library by the application of host `i`. (More interleavings than the library has: `stop` here does
not wait for busy threads.) -/
inductive Api (b : Build) (db : Database) (n : Net S) (i : Nat) (op : HostOp S) : List Out → Net S → Prop where
  | mk (h' : Host S) (outs : List Out) (ps : List Packet) (ha : IsApi op)
      (hs : (n.hosts i).step b db op = .ok (h', outs)) (hps : CopiesOf outs ps) :
      Api b db n i op outs { n.setHost i h' with flying := n.flying ++ ps }

end Net
end Uecho
