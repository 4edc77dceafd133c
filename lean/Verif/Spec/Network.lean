import Verif.Model.Network
import Verif.Spec.Controller
import Verif.Props.Codec
/-!
# Specification vocabulary for networks
-/
namespace Uecho.Spec
variable {S : Type}

/-- Finite executions without calls of the applications: everything put out, with the host that put it out. -/
inductive Unattended (b : Build) (db : Database) : Net S → List (Nat × Out) → Net S → Prop where
  | refl (n : Net S) : Unattended b db n [] n
  | step {n n₁ n₂ : Net S} {i : Nat} {outs : List Out} {rest : List (Nat × Out)}
      (h : Net.Internal b db n i outs n₁) (h' : Unattended b db n₁ rest n₂) :
      Unattended b db n (outs.map (fun o => (i, o)) ++ rest) n₂

/-- The service byte of a datagram is the one of a request (ESV is byte 10 of a Format-1 frame). -/
def isRequestDatagram (bytes : List UInt8) : Bool := match bytes[10]? with
  | some e => isRequestByte e
  | none => false

/-- How many replies the datagrams under way and the busy threads can still lead to: every time the node itself is an
observer of the thread that receives, or has received, a request. -/
def owed (n : Net S) : Nat :=
  ((n.flying.filter (fun p => isRequestDatagram p.bytes)).map (fun p =>
    match (n.hosts p.host).threads[p.srv]? with
    | some s => s.observers.count .node
    | none => 0)).sum +
  ((n.busy.filter (fun q => isRequestByte q.msg.esvByte)).map (fun q => q.todo.count .node)).sum

/-! ## What a controller may believe -/

/-- The codes of the objects of a node. -/
def codesOf (n : Node S) : List Nat := n.objects.map (fun o => o.code.toNat)

/-- A message that does not mislead controllers when node `n` sends it: if it counts as a description of a node it
lists only objects of `n`, and it does not ask an object other than the node profile for property 0xD6 (whose value a
controller would take for an instance list, see C74). -/
def Truthful (n : Node S) (m : Message) : Prop :=
  (IsProfileMessage m → ∀ c ∈ announcedCodes m, c ∈ codesOf n) ∧
  (m.esvByte = 0x62 ∨ m.esvByte = 0x63 → m.deoj ≠ profileCode → ∀ p ∈ m.properties, p.code ≠ 0xD6)

/-- Calls by the application of host `i`, with node `n`, that respect the rules: objects are filed properly, request
handlers do not modify objects, the application does not write into the node profile and keeps the codes of objects it
changes in place, what it sends itself is truthful,
it searches for node profiles, and the addresses of its interfaces are its own. -/
def HonestOp (own : IpAddr → Option Nat) (i : Nat) (n : Node S) : HostOp S → Prop
  | .node (.addObject o) => KeysOk o
  | .node (.addHandler h) => Passive h
  | .node (.setProperty oc _ _) => oc ≠ profileCode
  | .node (.edit oc f) => oc ≠ profileCode ∧ ∀ o, KeysOk o → o.code = oc → KeysOk (f o) ∧ (f o).code = oc
  | .node (.send _ m _) => Truthful n m
  | .node (.post _ m _) => Truthful n m
  | .node (.notify m _) => Truthful n m
  | .node (.announceProperty obj prop _) => Truthful n (Node.announceMessage obj prop)
  | .node (.start menv uenv _) => ∀ e ∈ menv ++ uenv, own e.addr = some i
  | .start menv uenv _ => ∀ e ∈ menv ++ uenv, own e.addr = some i
  | .search code _ => code = profileCode
  | .send _ m _ _ => Truthful n m
  | .post _ m _ => Truthful n m
  | _ => True

/-- A network on which nothing has happened yet: every host has a new node, with or without a controller. -/
structure Fresh (b : Build) (db : Database) (n : Net S) : Prop where
  flying : n.flying = []
  busy : n.busy = []
  hosts : ∀ i, ∃ uuid₁ uuid₂ ω app nd, uuid₁.length = 16 ∧ uuid₂.length = 16 ∧
    Node.new b db uuid₁ uuid₂ ω app = .ok nd ∧ (n.hosts i = Host.ofNode nd ∨ n.hosts i = Host.newController nd)
  sound : ∀ i o, n.poisoned i o = false

/-- All executions of such applications, threads and networks. No message is larger than the frame format allows (C52
is about those). -/
inductive Honest (b : Build) (db : Database) (own : IpAddr → Option Nat) (n₀ : Net S) : Net S → Prop where
  | init : Honest b db own n₀ n₀
  | internal {n n' : Net S} {i : Nat} {outs : List Out} (hx : Honest b db own n₀ n)
      (hs : Net.Internal b db n i outs n') (hz : ∀ u ∈ replies outs, SizesOk u) : Honest b db own n₀ n'
  | api {n n' : Net S} {i : Nat} {op : HostOp S} {outs : List Out} (hx : Honest b db own n₀ n)
      (hs : Net.Api b db n i op outs n') (hop : HonestOp own i (n.hosts i).node op)
      (hz : ∀ u ∈ replies outs, SizesOk u) : Honest b db own n₀ n'

/-! ## Reliable executions -/

/-- Thread `k` of host `i` runs and takes datagrams. -/
def Listening (n : Net S) (i k : Nat) : Prop := ∃ s, (n.hosts i).threads[k]? = some s ∧ s.thread = .running

/-- The copies `ps` of the datagrams put out by `outs` include, for every datagram addressed to a host with a running
thread, one for a running thread of that host. (There may be more copies, for any threads.) -/
def Delivered (own : IpAddr → Option Nat) (n : Net S) (outs : List Out) (ps : List Packet) : Prop :=
  Net.CopiesOf outs ps ∧
  ∀ t, Out.tx t ∈ outs → ∀ j, own t.to.ip = some j → (∃ k, Listening n j k) →
    ∃ p ∈ ps, p.host = j ∧ p.bytes = t.bytes ∧ p.src.ip = t.iface ∧ Listening n j p.srv

/-- The internal steps of a network (`Net.Internal`) with nothing lost on the way, working sockets, and applications
that do not hold the mutexes of nodes and controllers meanwhile: the host concerned and what it put out. -/
inductive Reliable (b : Build) (db : Database) (own : IpAddr → Option Nat) (n : Net S) :
    Nat → List Out → Net S → Prop where
  /-- an idle receiver thread takes a datagram -/
  | receive (l₁ l₂ : List Packet) (p : Packet) (s : Server) (hf : n.flying = l₁ ++ p :: l₂)
      (hs : (n.hosts p.host).threads[p.srv]? = some s) (hr : s.thread = .running)
      (hidle : ∀ q ∈ n.busy, ¬ (q.host = p.host ∧ q.srv = p.srv)) :
      Reliable b db own n p.host [] (n.received p s (l₁ ++ l₂))
  /-- a datagram for a thread that does not run disappears -/
  | drop (l₁ l₂ : List Packet) (p : Packet) (hf : n.flying = l₁ ++ p :: l₂) (hd : ¬ Listening n p.host p.srv) :
      Reliable b db own n p.host [] { n with flying := l₁ ++ l₂ }
  /-- a busy receiver thread calls its next observer -/
  | call (l₁ l₂ : List Busy) (q : Busy) (o : ObserverRef) (os : List ObserverRef) (e : CallEnv) (h' : Host S)
      (outs : List Out) (ps : List Packet) (hb : n.busy = l₁ ++ q :: l₂) (ht : q.todo = o :: os)
      (hp : n.poisoned q.host o = false)
      (hu : ∀ i, (e.uuid i).length = 16) (hfree : e.nodeFree = true ∧ e.ctrlFree = true) (hok : ∀ i, e.ok i = true)
      (hi : (n.hosts q.host).invoke b db e q.msg o = .ok (h', outs)) (hps : Delivered own n outs ps) :
      Reliable b db own n q.host outs { n.setHost q.host h' with
        flying := n.flying ++ ps, busy := l₁ ++ { q with todo := os } :: l₂ }
  /-- the observer panics and the receiver thread dies -/
  | die (l₁ l₂ : List Busy) (q : Busy) (o : ObserverRef) (os : List ObserverRef) (e : CallEnv)
      (hb : n.busy = l₁ ++ q :: l₂) (ht : q.todo = o :: os) (hp : n.poisoned q.host o = false)
      (hu : ∀ i, (e.uuid i).length = 16)
      (hfree : e.nodeFree = true ∧ e.ctrlFree = true) (hok : ∀ i, e.ok i = true)
      (hi : (n.hosts q.host).invoke b db e q.msg o = .panic) :
      Reliable b db own n q.host []
        { (n.setHost q.host ((n.hosts q.host).killThread q.srv)).poison q.host o with busy := l₁ ++ l₂ }
  /-- the mutex of the observer is poisoned and the receiver thread dies -/
  | infected (l₁ l₂ : List Busy) (q : Busy) (o : ObserverRef) (os : List ObserverRef) (hb : n.busy = l₁ ++ q :: l₂)
      (ht : q.todo = o :: os) (hp : n.poisoned q.host o = true) :
      Reliable b db own n q.host [] { n.setHost q.host ((n.hosts q.host).killThread q.srv) with busy := l₁ ++ l₂ }
  /-- one of several observers of a poisoned kind does nothing -/
  | skip (l₁ l₂ : List Busy) (q : Busy) (o : ObserverRef) (os : List ObserverRef) (hb : n.busy = l₁ ++ q :: l₂)
      (ht : q.todo = o :: os) (hp : n.poisoned q.host o = true)
      (hm : ∀ s, (n.hosts q.host).threads[q.srv]? = some s → 2 ≤ s.observers.count o) :
      Reliable b db own n q.host [] { n with busy := l₁ ++ { q with todo := os } :: l₂ }
  /-- all observers have been called -/
  | done (l₁ l₂ : List Busy) (q : Busy) (hb : n.busy = l₁ ++ q :: l₂) (ht : q.todo = []) :
      Reliable b db own n q.host [] { n with busy := l₁ ++ l₂ }

/-- Finite reliable executions. -/
inductive Reliably (b : Build) (db : Database) (own : IpAddr → Option Nat) : Net S → Net S → Prop where
  | refl (n : Net S) : Reliably b db own n n
  | step {n n₁ n₂ : Net S} {i : Nat} {outs : List Out} (h : Reliably b db own n n₁)
      (h' : Reliable b db own n₁ i outs n₂) : Reliably b db own n n₂

end Uecho.Spec
