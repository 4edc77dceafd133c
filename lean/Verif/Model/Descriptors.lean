import Verif.Model.Servers
/-!
# The sockets of a running transport

Every server has a socket, `Arc<RwLock<UdpSocket>>` (src/transport/unicast_server.rs:31, src/transport/multicast_server.rs:31),
which it shares with its receiver thread. The descriptor is closed when the last of the two lets go of it
(`std::net::UdpSocket` closes it when it is dropped; `UdpSocket::close`, src/transport/udp_socket.rs:121-134, only shuts it
down). Here the reference counts are added to the executions of `Model/Servers`; nothing else is.

A server whose `bind` fails, or whose multicast join fails or panics, is dropped in the same step, with the socket it may
have opened, before it is in any vector.
-/
namespace Uecho.Live

/-- A transport with the strong counts of the sockets of all servers ever created (in the order of `St.srvs`). -/
structure Counted where
  st : St
  held : List Nat

/-- The thread has ended. -/
def Pc.over : Pc → Bool
  | .finished => true
  | .panicked => true
  | _ => false

/-- One reference to the socket of server `s` is dropped. -/
def letGo (held : List Nat) (s : Nat) : List Nat := held.modify s (fun c => c - 1)

/-- What a step of a call does to the counts. `start` of a server gives a clone to the thread
(src/transport/unicast_server.rs:103, src/transport/multicast_server.rs:137) and the server is pushed into the vector;
`clear` drops the servers of a vector. -/
def Act.counts (σ : St) (held : List Nat) : Act → List Nat
  | .spawnM e => if multicastBind e = .ok true then held ++ [2] else held
  | .spawnU e => if unicastBind e = true then held ++ [2] else held
  | .clearU => σ.ucast.foldl letGo held
  | .clearM => σ.mcast.foldl letGo held
  | _ => held

/-- One step of the whole (`Step`) with the counts. A receiver thread that returns or panics drops its closure
(src/transport/unicast_server.rs:106-147, src/transport/multicast_server.rs:140-181), which owns the clone. -/
inductive CStep (φ : Counted) : Who → List Ev → Counted → Prop where
  | thread (s : Nat) (v v' : Srv) (evs : List Ev) (hv : φ.st.srvs[s]? = some v) (hr : Recv s v evs v') :
      CStep φ (.thread s) evs ⟨{ φ.st with srvs := φ.st.srvs.set s v' }, if v'.pc.over then letGo φ.held s else φ.held⟩
  | caller (op : MOp) (a : Act) (as : List Act) (evs : List Ev) (σ' : St) (hc : φ.st.caller = some ⟨op, a :: as⟩)
      (hd : Do φ.st op as a evs σ') : CStep φ .caller evs ⟨σ', a.counts φ.st φ.held⟩
  | invoke (op : MOp) (hc : φ.st.caller = none) :
      CStep φ .app [.invoked op] ⟨{ φ.st with caller := some ⟨op, φ.st.actsOf op⟩ }, φ.held⟩

/-- All executions from a new manager, with what happened. -/
inductive CRuns : List Ev → Counted → Prop where
  | new : CRuns [] ⟨St.new, []⟩
  | step {tr : List Ev} {φ φ' : Counted} {w : Who} {evs : List Ev} (h : CRuns tr φ) (hs : CStep φ w evs φ') :
      CRuns (tr ++ evs) φ'

/-! ## Dropping a manager -/

/-- How the destructor of a `Manager` ends: it returns, it panics, or the process is aborted because a destructor panics
while a panic unwinds (semantics of Rust). -/
inductive DropEnd where
  | returns
  | panics
  | aborts
deriving DecidableEq, Repr

/-- Stopping servers one after the other until one panics; `true` is a server whose thread has panicked and whose handle
has not been taken (`handle.take()`, src/transport/unicast_server.rs:157-159, src/transport/multicast_server.rs:192-194,
takes it in any case). The result: has it panicked, and the servers as they are then. -/
def stopEach : List Bool → Bool × List Bool
  | [] => (false, [])
  | true :: l => (true, false :: l)
  | false :: l => ((stopEach l).1, false :: (stopEach l).2)

/-- `UnicastManager::stop`, `MulticastManager::stop` (src/transport/unicast_manager.rs:95-104,
src/transport/multicast_manager.rs:95-104): the vector is cleared unless a server panics. A server that is dropped stops
once more (src/transport/unicast_server.rs:164-168, src/transport/multicast_server.rs:199-203), without a handle. -/
def stopVec (l : List Bool) : Bool × List Bool :=
  match stopEach l with
  | (true, l') => (true, l')
  | (false, _) => (false, [])

/-- `Manager::stop` (src/transport/manager.rs:86-90) on the two vectors. -/
def stopBoth (u m : List Bool) : Bool × List Bool × List Bool :=
  match stopVec u with
  | (true, u') => (true, u', m)
  | (false, u') => ((stopVec m).1, u', (stopVec m).2)

/-- The destructor of a vector of servers whose own destructor (`UnicastManager`, `MulticastManager`:
src/transport/unicast_manager.rs:107-111, src/transport/multicast_manager.rs:107-111) runs while a panic unwinds: is the
process aborted? -/
def dropUnwinding (l : List Bool) : Bool := (stopVec l).1

/-- The destructor of a vector of servers when nothing unwinds: `stop`, and if that panics the remaining servers are
dropped, each of which stops, while the panic unwinds. -/
def dropVec (l : List Bool) : DropEnd :=
  match stopVec l with
  | (false, _) => .returns
  | (true, l') => if l'.any id then .aborts else .panics

/-- `impl Drop for Manager` (src/transport/manager.rs:93-97): `stop`; then, whether it has panicked or not, the destructors
of the two fields in the order of their declaration (src/transport/manager.rs:23-26). -/
def dropManager (u m : List Bool) : DropEnd :=
  match stopBoth u m with
  | (true, u', m') => if dropUnwinding u' then .aborts else if dropUnwinding m' then .aborts else .panics
  | (false, u', m') =>
    match dropVec u' with
    | .aborts => .aborts
    | .panics => if dropUnwinding m' then .aborts else .panics
    | .returns => dropVec m'

end Uecho.Live
