import Verif.Spec.Told
import Verif.Spec.Controller
/-!
# Specification vocabulary: notifications sent at any time by several hosts (C100)

`Publishes` and `listenersOf` are in `Spec/Told.lean`, `Reliable` in `Spec/Network.lean`.
-/
namespace Uecho.Spec
variable {S : Type}

/-- A message that an application sends out, the message as the library put it out (with its transaction id), and the copies
of it that the network delivers. -/
structure Sending where
  message : Message
  handed : Message
  packets : List Packet

/-- Executions, from a network `n₀` at rest on which no observer has panicked, in which applications of any hosts send out
notifications and other responses at any time, between any two steps of any receiver threads: `sent` is what they sent, in
order, `tr` what the receiver threads have put out. -/
inductive Chatter (b : Build) (db : Database) (own : IpAddr → Option Nat) (n₀ : Net S) :
    List Sending → List (Nat × Out) → Net S → Prop where
  | start (flying : n₀.flying = []) (busy : n₀.busy = []) (sound : ∀ k o, n₀.poisoned k o = false) :
      Chatter b db own n₀ [] [] n₀
  /-- the application of host `i` sends out the message `m` -/
  | publish {n n' : Net S} {sent : List Sending} {tr : List (Nat × Out)} {i : Nat} {op : HostOp S} {m u : Message}
      {outs : List Out} {ps : List Packet} (before : Chatter b db own n₀ sent tr n) (what : Publishes op m)
      (api : Net.Api b db n i op outs n') (format : m.isFormat1 = true) (service : isResponseByte m.esvByte = true)
      (not5E : m.esvByte ≠ 0x5E) (fits : ∀ g v, Out.handed g v ∈ outs → v = u ∧ Fits v)
      (packets : n'.flying = n.flying ++ ps) : Chatter b db own n₀ (sent ++ [⟨m, u, ps⟩]) tr n'
  /-- a receiver thread takes a step -/
  | internal {n n' : Net S} {sent : List Sending} {tr : List (Nat × Out)} {k : Nat} {outs : List Out}
      (before : Chatter b db own n₀ sent tr n) (step : Reliable b db own n k outs n') :
      Chatter b db own n₀ sent (tr ++ outs.map (fun o => (k, o))) n'

/-- What has to be told at host `j`: for each copy that is delivered there, to each observer of the application registered with
the thread it arrives at, the address it came from and the content of the message put out. -/
def allToTell (n₀ : Net S) (j : Nat) (sent : List Sending) : List (Nat × SocketAddr × Frame) :=
  sent.flatMap (fun e => (e.packets.filter (fun p => p.host == j)).flatMap (fun p =>
    (listenersOf (n₀.hosts j) p.srv).map (fun k => (k, p.src, frameOf e.handed))))

/-- A receiver thread of host `j` runs with which a controller is registered. -/
def ControllerAt (n₀ : Net S) (j k : Nat) : Prop :=
  ∃ s, (n₀.hosts j).threads[k]? = some s ∧ s.thread = .running ∧ ObserverRef.controller ∈ s.observers

/-- The message of `e` describes a node, and a copy of it that comes from address `a` is delivered to a running receiver thread
of host `j` with which a controller is registered. -/
def HeardFrom (n₀ : Net S) (sent : List Sending) (j : Nat) (a : SocketAddr) (e : Sending) : Prop :=
  e ∈ sent ∧ IsProfileMessage e.message ∧ ∃ p ∈ e.packets, p.host = j ∧ p.src = a ∧ ControllerAt n₀ j p.srv

/-- As `Chatter`, but for all executions: datagrams may get lost at any time, the receiver threads may find the node or the
controller in use by another thread, and sockets may fail. Only the application's own code is assumed not to panic. -/
inductive Noise (b : Build) (db : Database) (n₀ : Net S) : List Sending → List (Nat × Out) → Net S → Prop where
  | start (flying : n₀.flying = []) (busy : n₀.busy = []) (sound : ∀ k o, n₀.poisoned k o = false)
      (tame : ∀ i, n₀.wild i = false) : Noise b db n₀ [] [] n₀
  /-- the application of host `i` sends out the message `m` -/
  | publish {n n' : Net S} {sent : List Sending} {tr : List (Nat × Out)} {i : Nat} {op : HostOp S} {m u : Message}
      {outs : List Out} {ps : List Packet} (before : Noise b db n₀ sent tr n) (what : Publishes op m)
      (api : Net.Api b db n i op outs n') (format : m.isFormat1 = true) (service : isResponseByte m.esvByte = true)
      (not5E : m.esvByte ≠ 0x5E) (fits : ∀ g v, Out.handed g v ∈ outs → v = u ∧ Fits v)
      (packets : n'.flying = n.flying ++ ps) : Noise b db n₀ (sent ++ [⟨m, u, ps⟩]) tr n'
  /-- the network or a receiver thread takes a step -/
  | internal {n n' : Net S} {sent : List Sending} {tr : List (Nat × Out)} {k : Nat} {outs : List Out}
      (before : Noise b db n₀ sent tr n) (step : Net.Internal b db n k outs n') :
      Noise b db n₀ sent (tr ++ outs.map (fun o => (k, o))) n'

end Uecho.Spec
