import Verif.Model.Transport
/-!
# The transport as running threads

`Verif/Model/Transport.lean` treats `start` and `stop` as atomic and a receiver as a function. Here are the same
functions step by step: one thread calls the `Manager` (its methods take `&mut self`), one receiver thread per server
runs the receive loop, and all steps interleave in any order. The operating system is the environment: which
interfaces there are, which `bind`s succeed and what `recv_from` returns (after 500 ms at the latest,
src/transport/udp_socket.rs:113-115). What an observer does with a message is not modelled, except that it may panic.
The `RwLock` around the socket does not appear: it is write-locked only in `bind`, before the thread exists.
-/
namespace Uecho.Live

/-- Where a receiver thread is in its loop (src/transport/unicast_server.rs:106-147,
src/transport/multicast_server.rs:140-181). -/
inductive Pc where
  /-- at the head of the loop, before it loads the stop flag -/
  | check
  /-- in `recv_from` -/
  | recv
  /-- before `notifier.lock()`, with a decoded message -/
  | handing (m : Message)
  /-- in `notify`, holding the notifier, with the observers still to call (src/transport/notify_manager.rs:48-54) -/
  | calling (m : Message) (todo : List ObserverRef)
  /-- the thread has returned -/
  | finished
  /-- the thread has panicked -/
  | panicked
deriving DecidableEq, Repr

/-- `UnicastServer` / `MulticastServer` (src/transport/unicast_server.rs:30-35,
src/transport/multicast_server.rs:30-35) with its thread: the observers in the notifier and whether its mutex is
poisoned, the stop flag, whether `thread_handle` is there. -/
structure Srv where
  addr : IpAddr
  observers : List ObserverRef
  poisoned : Bool
  stop : Bool
  handle : Bool
  pc : Pc
deriving DecidableEq, Repr

/-- `new`, `bind` and `start` of a server (src/transport/unicast_server.rs:38-45, 102-150,
src/transport/multicast_server.rs:38-45, 136-185). -/
def Srv.spawned (a : IpAddr) : Srv := ⟨a, [], false, false, true, .check⟩

/-- The calls on a `Manager` (src/transport/manager.rs:36-90); for `start` with what the operating system answers
(see `IfOutcome`). -/
inductive MOp where
  | start (menv uenv : List IfOutcome)
  | stop
  | addObserver (o : ObserverRef)

/-- The steps these calls consist of. -/
inductive Act where
  /-- one round of the loop in `MulticastManager::start` (src/transport/multicast_manager.rs:82-91) -/
  | spawnM (e : IfOutcome)
  /-- `if !self.mcast_mgr.start()` (src/transport/manager.rs:75-78) -/
  | readyM
  /-- one round of the loop in `UnicastManager::start` (src/transport/unicast_manager.rs:82-91) -/
  | spawnU (e : IfOutcome)
  /-- `if !self.ucast_mgr.start()` (src/transport/manager.rs:79-82) -/
  | readyU
  /-- `stop_flag.store(true)` (src/transport/unicast_server.rs:153, src/transport/multicast_server.rs:188); `close`
  succeeds -/
  | flag (s : Nat)
  /-- `handle.join().unwrap()` (src/transport/unicast_server.rs:157-159, src/transport/multicast_server.rs:192-194) -/
  | join (s : Nat)
  /-- `udp_servers.clear()` (src/transport/unicast_manager.rs:102) -/
  | clearU
  /-- `mcast_servers.clear()` (src/transport/multicast_manager.rs:102) -/
  | clearM
  /-- `notifier.lock().unwrap().add_observer(o)` (src/transport/unicast_server.rs:47-49,
  src/transport/multicast_server.rs:47-49) -/
  | observe (s : Nat) (o : ObserverRef)
  /-- the call returns -/
  | ret (r : Bool)

/-- The caller inside a call. -/
structure Job where
  op : MOp
  acts : List Act

/-- All servers ever created (the index is the name of a server), those in the two vectors of the managers
(src/transport/unicast_manager.rs:29-31, src/transport/multicast_manager.rs:29-31), and the caller. -/
structure St where
  srvs : List Srv
  ucast : List Nat
  mcast : List Nat
  caller : Option Job

/-- `Manager::new` (src/transport/manager.rs:29-34). -/
def St.new : St := ⟨[], [], [], none⟩

/-- What happens, in order. -/
inductive Ev where
  | invoked (op : MOp)
  | returned (op : MOp) (r : Bool)
  | crashed (op : MOp)
  /-- `recv_from` returned on server `s` -/
  | received (s : Nat) (e : SocketEvent)
  /-- server `s` begins to notify its observers of `m` -/
  | notify (s : Nat) (m : Message) (obs : List ObserverRef)
  /-- an observer is called by the thread of server `s` -/
  | called (s : Nat) (o : ObserverRef) (m : Message)

/-- `Manager::stop` (src/transport/manager.rs:86-90) with `UnicastManager::stop`, `MulticastManager::stop`
(src/transport/unicast_manager.rs:95-104, src/transport/multicast_manager.rs:95-104): one server after the other. -/
def St.stopActs (σ : St) (r : Bool) : List Act :=
  σ.ucast.flatMap (fun s => [.flag s, .join s]) ++ [.clearU] ++
  σ.mcast.flatMap (fun s => [.flag s, .join s]) ++ [.clearM, .ret r]

/-- The steps of a call. `Manager::start` (src/transport/manager.rs:71-84) returns at once if both managers are
running; each manager's `start` does nothing if it is running (src/transport/unicast_manager.rs:78-80,
src/transport/multicast_manager.rs:78-80). `Manager::add_observer` (src/transport/manager.rs:36-44). -/
def St.actsOf (σ : St) : MOp → List Act
  | .start menv uenv =>
    if !σ.mcast.isEmpty && !σ.ucast.isEmpty then [.ret true]
    else (if σ.mcast.isEmpty then menv.map .spawnM else []) ++ [.readyM] ++
      (if σ.ucast.isEmpty then uenv.map .spawnU else []) ++ [.readyU, .ret true]
  | .stop => σ.stopActs true
  | .addObserver o => (σ.ucast ++ σ.mcast).map (fun s => .observe s o) ++ [.ret true]

/-- Change one server. -/
def St.modify (σ : St) (s : Nat) (f : Srv → Srv) : St := { σ with srvs := σ.srvs.modify s f }

/-- The loop after `recv_from` (src/transport/unicast_server.rs:109-146, src/transport/multicast_server.rs:143-180); the
decoding is that of `recvLoop`. -/
def Srv.received (v : Srv) (e : SocketEvent) : Srv :=
  match recvLoop [e] with
  | (m :: _, _) => { v with pc := .handing m }
  | ([], .running) => { v with pc := .check }
  | ([], .ended) => { v with pc := .finished }
  | ([], .panicked) => { v with pc := .panicked }

/-- One step of the receiver thread of server `s`. -/
inductive Recv (s : Nat) (v : Srv) : List Ev → Srv → Prop where
  | exit (hp : v.pc = .check) (hf : v.stop = true) : Recv s v [] { v with pc := .finished }
  | wait (hp : v.pc = .check) (hf : v.stop = false) : Recv s v [] { v with pc := .recv }
  | got (e : SocketEvent) (hp : v.pc = .recv) : Recv s v [.received s e] (v.received e)
  | lock (m : Message) (hp : v.pc = .handing m) (hl : v.poisoned = false) :
      Recv s v [.notify s m v.observers] { v with pc := .calling m v.observers }
  | lockPoisoned (m : Message) (hp : v.pc = .handing m) (hl : v.poisoned = true) : Recv s v [] { v with pc := .panicked }
  | call (m : Message) (o : ObserverRef) (os : List ObserverRef) (hp : v.pc = .calling m (o :: os)) :
      Recv s v [.called s o m] { v with pc := .calling m os }
  /-- the observer panics while the notifier is locked -/
  | die (m : Message) (o : ObserverRef) (os : List ObserverRef) (hp : v.pc = .calling m (o :: os)) :
      Recv s v [.called s o m] { v with pc := .panicked, poisoned := true }
  | next (m : Message) (hp : v.pc = .calling m []) : Recv s v [] { v with pc := .check }

/-- Whether a thread holds the notifier of its server. -/
def Srv.notifying (v : Srv) : Bool :=
  match v.pc with
  | .calling _ _ => true
  | _ => false

/-- One step of the caller inside the call `op`, with `as` still to do. -/
inductive Do (σ : St) (op : MOp) (as : List Act) : Act → List Ev → St → Prop where
  /-- bound, started and pushed, see `multicastBind`, `unicastBind` -/
  | spawnM (e : IfOutcome) (h : multicastBind e = .ok true) : Do σ op as (.spawnM e) []
      { σ with srvs := σ.srvs ++ [Srv.spawned e.addr], mcast := σ.mcast ++ [σ.srvs.length], caller := some ⟨op, as⟩ }
  | skipM (e : IfOutcome) (h : multicastBind e = .ok false) : Do σ op as (.spawnM e) [] { σ with caller := some ⟨op, as⟩ }
  | crashM (e : IfOutcome) (h : multicastBind e = .panic) : Do σ op as (.spawnM e) [.crashed op] { σ with caller := none }
  | readyM (h : σ.mcast.isEmpty = false) : Do σ op as .readyM [] { σ with caller := some ⟨op, as⟩ }
  | failM (h : σ.mcast.isEmpty = true) : Do σ op as .readyM [] { σ with caller := some ⟨op, σ.stopActs false⟩ }
  | spawnU (e : IfOutcome) (h : unicastBind e = true) : Do σ op as (.spawnU e) []
      { σ with srvs := σ.srvs ++ [Srv.spawned e.addr], ucast := σ.ucast ++ [σ.srvs.length], caller := some ⟨op, as⟩ }
  | skipU (e : IfOutcome) (h : unicastBind e = false) : Do σ op as (.spawnU e) [] { σ with caller := some ⟨op, as⟩ }
  | readyU (h : σ.ucast.isEmpty = false) : Do σ op as .readyU [] { σ with caller := some ⟨op, as⟩ }
  | failU (h : σ.ucast.isEmpty = true) : Do σ op as .readyU [] { σ with caller := some ⟨op, σ.stopActs false⟩ }
  | flag (s : Nat) : Do σ op as (.flag s) []
      { σ.modify s (fun v => { v with stop := true }) with caller := some ⟨op, as⟩ }
  | joined (s : Nat) (v : Srv) (hv : σ.srvs[s]? = some v) (hh : v.handle = true) (hp : v.pc = .finished) :
      Do σ op as (.join s) [] { σ.modify s (fun v => { v with handle := false }) with caller := some ⟨op, as⟩ }
  /-- `join` reports the panic of the thread and `unwrap` panics -/
  | joinCrash (s : Nat) (v : Srv) (hv : σ.srvs[s]? = some v) (hh : v.handle = true) (hp : v.pc = .panicked) :
      Do σ op as (.join s) [.crashed op] { σ.modify s (fun v => { v with handle := false }) with caller := none }
  | noHandle (s : Nat) (v : Srv) (hv : σ.srvs[s]? = some v) (hh : v.handle = false) :
      Do σ op as (.join s) [] { σ with caller := some ⟨op, as⟩ }
  | clearU : Do σ op as .clearU [] { σ with ucast := [], caller := some ⟨op, as⟩ }
  | clearM : Do σ op as .clearM [] { σ with mcast := [], caller := some ⟨op, as⟩ }
  | observe (s : Nat) (o : ObserverRef) (v : Srv) (hv : σ.srvs[s]? = some v) (hn : v.notifying = false)
      (hp : v.poisoned = false) : Do σ op as (.observe s o) []
      { σ.modify s (fun v => { v with observers := v.observers ++ [o] }) with caller := some ⟨op, as⟩ }
  | observeCrash (s : Nat) (o : ObserverRef) (v : Srv) (hv : σ.srvs[s]? = some v) (hn : v.notifying = false)
      (hp : v.poisoned = true) : Do σ op as (.observe s o) [.crashed op] { σ with caller := none }
  | ret (r : Bool) : Do σ op as (.ret r) [.returned op r] { σ with caller := none }

/-- Who takes a step: a receiver thread, the caller inside a call, or the application, which begins a call. -/
inductive Who where
  | thread (s : Nat)
  | caller
  | app
deriving DecidableEq, Repr

/-- One step of the whole. -/
inductive Step (σ : St) : Who → List Ev → St → Prop where
  | thread (s : Nat) (v v' : Srv) (evs : List Ev) (hv : σ.srvs[s]? = some v) (hr : Recv s v evs v') :
      Step σ (.thread s) evs { σ with srvs := σ.srvs.set s v' }
  | caller (op : MOp) (a : Act) (as : List Act) (evs : List Ev) (σ' : St) (hc : σ.caller = some ⟨op, a :: as⟩)
      (hd : Do σ op as a evs σ') : Step σ .caller evs σ'
  | invoke (op : MOp) (hc : σ.caller = none) : Step σ .app [.invoked op] { σ with caller := some ⟨op, σ.actsOf op⟩ }

/-- All executions from a new manager, with what happened. -/
inductive Runs : List Ev → St → Prop where
  | new : Runs [] St.new
  | step {tr : List Ev} {σ σ' : St} {w : Who} {evs : List Ev} (h : Runs tr σ) (hs : Step σ w evs σ') :
      Runs (tr ++ evs) σ'

end Uecho.Live
