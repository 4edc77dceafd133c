import Verif.Model.Descriptors
/-!
# The running transport with time

`Model/Servers` with a clock. A component that can take a step takes it within a limit: a receiver thread that waits for a
datagram goes on within the read timeout of its socket (`set_read_timeout`, src/transport/udp_socket.rs:112-115, 500 ms),
a call of an observer takes at most a given time, as does binding a socket, and every other step at most a given time. The
steps themselves are those of `Model/Servers`, nothing is added to or taken from them.

Simplification: the result of `set_read_timeout` is ignored by the code and supposed to be success here.
-/
namespace Uecho.Live

/-- The longest time steps may take: waiting in `recv_from`, calling an observer, creating and binding a server, anything
else. -/
structure Limits where
  recv : Nat
  call : Nat
  bind : Nat
  step : Nat

/-- The read timeout of the library (src/transport/udp_socket.rs:115), in milliseconds. -/
def readTimeout : Nat := 500

/-- `UDP_SOCKET_BIND_RETRY_MAX` (src/transport/udp_socket.rs:30). -/
def bindRetryMax : Nat := 3

/-- `UDP_SOCKET_BIND_SLEEP_MSEC` (src/transport/udp_socket.rs:31). -/
def bindSleep : Nat := 100

/-- The loop of `UdpSocket::bind` (src/transport/udp_socket.rs:91-106) with `n` rounds to go: what the attempts to create
the socket yield, from number `i` on; has it been created, and for how many milliseconds has it slept. -/
def bindLoop (attempt : Nat → Bool) : Nat → Nat → Bool × Nat
  | 0, _ => (false, 0)
  | n + 1, i =>
    if attempt i then (true, 0)
    else ((bindLoop attempt n (i + 1)).1, bindSleep + (bindLoop attempt n (i + 1)).2)

/-- `UdpSocket::bind` (src/transport/udp_socket.rs:84-119). -/
def bindSocket (attempt : Nat → Bool) : Bool × Nat := bindLoop attempt bindRetryMax 0

/-- How long a receiver thread may stay where it is. -/
def Limits.at (L : Limits) : Pc → Nat
  | .recv => L.recv
  | .calling _ (_ :: _) => L.call
  | _ => L.step

/-- How long the caller may take for a step of a call. -/
def Limits.act (L : Limits) : Act → Nat
  | .spawnM _ => L.bind
  | .spawnU _ => L.bind
  | _ => L.step

/-- How long the caller may stay where it is. -/
def Limits.caller (L : Limits) (σ : St) : Nat :=
  match σ.caller with
  | some ⟨_, a :: _⟩ => L.act a
  | _ => L.step

/-- The caller is in a call and can go on: it does not wait in `join` (src/transport/unicast_server.rs:157-159,
src/transport/multicast_server.rs:192-194) for a thread that has not ended, nor for the notifier
(src/transport/unicast_server.rs:47-49, src/transport/multicast_server.rs:47-49). -/
def St.ready (σ : St) : Bool :=
  match σ.caller with
  | none => false
  | some ⟨_, .join s :: _⟩ => match σ.srvs[s]? with
    | some v => !v.handle || v.pc.over
    | none => true
  | some ⟨_, .observe s _ :: _⟩ => match σ.srvs[s]? with
    | some v => !v.notifying
    | none => true
  | some _ => true

/-- A step of a receiver thread. -/
def Who.isThread : Who → Bool
  | .thread _ => true
  | _ => false

/-- A transport at a time: until when each receiver thread goes on, and until when the caller does. -/
structure Timed where
  st : St
  clock : Nat
  dueT : Nat → Nat
  dueC : Nat

/-- Time passes, unless someone would be late; or somebody takes a step, and has its limit for the next one. A caller that
waited has it from the moment it need not wait any more. -/
inductive TimedStep (L : Limits) (τ : Timed) : Who → List Ev → Timed → Prop where
  | wait (w : Who) (d : Nat) (ht : ∀ (s : Nat) v, τ.st.srvs[s]? = some v → v.pc.over = false → τ.clock + d ≤ τ.dueT s)
      (hc : τ.st.ready = true → τ.clock + d ≤ τ.dueC) : TimedStep L τ w [] { τ with clock := τ.clock + d }
  | act (w : Who) (evs : List Ev) (σ' : St) (hs : Step τ.st w evs σ') : TimedStep L τ w evs
      { st := σ'
        clock := τ.clock
        dueT := fun s => match σ'.srvs[s]? with
          | some v => if w = .thread s ∨ τ.st.srvs.length ≤ s then τ.clock + L.at v.pc else τ.dueT s
          | none => τ.dueT s
        dueC := if w.isThread && τ.st.ready then τ.dueC else τ.clock + L.caller σ' }

/-- All executions from a new manager, with what happened. -/
inductive TimedRuns (L : Limits) : List Ev → Timed → Prop where
  | new (dueT : Nat → Nat) (dueC : Nat) : TimedRuns L [] ⟨St.new, 0, dueT, dueC⟩
  | step {tr : List Ev} {τ τ' : Timed} {w : Who} {evs : List Ev} (h : TimedRuns L tr τ) (hs : TimedStep L τ w evs τ') :
      TimedRuns L (tr ++ evs) τ'

end Uecho.Live
