/-!
# Mutexes, threads and blocking

Which mutexes each function of the library takes, in which order, and when it waits for a thread. The
sequential meaning of the functions is the subject of the other modules; here a function is only the
sequence of its blocking actions. Data-dependent branches are `choice`s, so a program of the model has at
least the behaviours of the code. Not modelled: the `RwLock` around the socket (write-locked only in `bind`,
before the server is shared, src/transport/unicast_server.rs:86), the channel of `post_message` (sending
never blocks), the logger, and the kernel (a `recv_from` returns after at most 500 ms,
src/transport/udp_socket.rs:113-115).
-/
namespace Uecho.Locks

/-- Threads: those of the application, and one receiver thread per server
(src/transport/unicast_server.rs:102-150, src/transport/multicast_server.rs:136-185). -/
inductive Thread where
  | app (i : Nat)
  | recv (s : Nat)
deriving DecidableEq, Repr

/-- What a thread can own. -/
inductive Lock where
  /-- a mutex of the application that its callbacks do not use -/
  | outer (x : Nat)
  /-- the `Mutex<DeviceNode>` or `Mutex<ControllerNode>` of a `Device` or `Controller`
  (src/device.rs:165, src/controller.rs:71) -/
  | api (i : Nat)
  /-- the `Mutex<Node>` (src/node.rs:43) -/
  | node
  /-- not a mutex: owned by receiver thread `s` while it exists (src/transport/unicast_server.rs:34) -/
  | thread (s : Nat)
  /-- the `Mutex<NotifytManager>` of server `s` (src/transport/notifier.rs:21-25) -/
  | notifier (s : Nat)
  /-- the `Mutex` around an observer (src/transport/observer.rs:25) -/
  | obs (o : Nat)
  /-- the `Mutex` around a request handler (src/request_handler.rs:89) -/
  | handler (h : Nat)
  /-- a mutex of the application that callbacks may use -/
  | leaf (x : Nat)
deriving DecidableEq, Repr

/-- The blocking actions of a function, as a tree. -/
inductive Prog where
  | done
  /-- `mutex.lock().unwrap()` -/
  | lock (l : Lock) (k : Prog)
  /-- `mutex.try_lock()`: continue with `s` if it succeeds, with `f` otherwise -/
  | tryLock (l : Lock) (s f : Prog)
  /-- the guard is dropped -/
  | unlock (l : Lock) (k : Prog)
  /-- the stop flag of server `s` is set, then its thread is joined -/
  | stop (s : Nat) (k : Prog)
  /-- waiting in `join` -/
  | join (s : Nat) (k : Prog)
  /-- anything that neither blocks nor panics -/
  | work (k : Prog)
  /-- a branch on data -/
  | choice (p q : Prog)
  /-- a panic -/
  | panic
  /-- the receiver thread at the head of its loop (src/transport/unicast_server.rs:108) -/
  | idle (s : Nat)
deriving DecidableEq, Repr

/-- The state of all threads and mutexes. -/
structure State where
  prog : Thread → Prog
  owner : Lock → Option Thread
  poisoned : Lock → Bool
  flag : Nat → Bool
  crashed : Thread → Bool

namespace State

/-- Thread `t` continues with `p` (not from the repository). -/
def setProg (σ : State) (t : Thread) (p : Prog) : State :=
  { σ with prog := fun t' => if t' = t then p else σ.prog t' }

/-- The owner of `l` changes (not from the repository). -/
def setOwner (σ : State) (l : Lock) (o : Option Thread) : State :=
  { σ with owner := fun l' => if l' = l then o else σ.owner l' }

/-- Thread `t` panics: its guards are dropped while unwinding, which poisons the mutexes (semantics of
`std::sync::Mutex`). -/
def crash (σ : State) (t : Thread) : State :=
  { σ with
    prog := fun t' => if t' = t then .done else σ.prog t'
    owner := fun l => if σ.owner l = some t then none else σ.owner l
    poisoned := fun l => if σ.owner l = some t then true else σ.poisoned l
    crashed := fun t' => if t' = t then true else σ.crashed t' }

end State

/-- One step of one thread (semantics of `std::sync::Mutex` and `std::thread::JoinHandle`). Locking a
poisoned mutex gives an error, on which the library panics (`unwrap`) after `lock` and which it treats like
a taken mutex after `try_lock` (src/node.rs:451-453, src/controller_node.rs:131-133,
src/controller.rs:116-118). -/
inductive Step : State → State → Prop
  | lock {σ t l k} : σ.prog t = .lock l k → σ.owner l = none → σ.poisoned l = false →
      Step σ ((σ.setOwner l (some t)).setProg t k)
  | lockPoisoned {σ t l k} : σ.prog t = .lock l k → σ.owner l = none → σ.poisoned l = true → Step σ (σ.crash t)
  | tryOk {σ t l s f} : σ.prog t = .tryLock l s f → σ.owner l = none → σ.poisoned l = false →
      Step σ ((σ.setOwner l (some t)).setProg t s)
  | tryFail {σ t l s f} : σ.prog t = .tryLock l s f → (σ.owner l ≠ none ∨ σ.poisoned l = true) →
      Step σ (σ.setProg t f)
  | unlock {σ t l k} : σ.prog t = .unlock l k → σ.owner l = some t → Step σ ((σ.setOwner l none).setProg t k)
  | stop {σ t s k} : σ.prog t = .stop s k →
      Step σ ({ σ with flag := fun s' => if s' = s then true else σ.flag s' }.setProg t (.join s k))
  | join {σ t s k} : σ.prog t = .join s k → σ.owner (.thread s) = none → σ.crashed (.recv s) = false →
      Step σ (σ.setProg t k)
  | joinCrashed {σ t s k} : σ.prog t = .join s k → σ.owner (.thread s) = none → σ.crashed (.recv s) = true →
      Step σ (σ.crash t)
  | work {σ t k} : σ.prog t = .work k → Step σ (σ.setProg t k)
  | choiceL {σ t p q} : σ.prog t = .choice p q → Step σ (σ.setProg t p)
  | choiceR {σ t p q} : σ.prog t = .choice p q → Step σ (σ.setProg t q)
  | panic {σ t} : σ.prog t = .panic → Step σ (σ.crash t)
  | exit {σ t s} : σ.prog t = .idle s → σ.owner (.thread s) = some t → σ.flag s = true →
      Step σ ((σ.setOwner (.thread s) none).setProg t .done)

/-- What the world may do: which programs the application's threads run, and which programs a receiver
thread runs for a datagram. -/
structure World where
  app : Prog → Prop
  message : Nat → Prog → Prop

/-- Steps of the environment: a thread of the application that has finished runs another program, a server
is started, a datagram arrives at an idle receiver. -/
inductive Env (W : World) : State → State → Prop
  | app {σ i p} : W.app p → σ.prog (.app i) = .done → Env W σ (σ.setProg (.app i) p)
  | spawn {σ s} : σ.prog (.recv s) = .done → σ.owner (.thread s) = none → σ.flag s = false →
      σ.crashed (.recv s) = false →
      Env W σ ((σ.setOwner (.thread s) (some (.recv s))).setProg (.recv s) (.idle s))
  | message {σ s p} : W.message s p → σ.prog (.recv s) = .idle s → Env W σ (σ.setProg (.recv s) p)

/-- Nothing runs, nothing is locked. -/
def State.init : State := ⟨fun _ => .done, fun _ => none, fun _ => false, fun _ => false, fun _ => false⟩

/-- Any interleaving of steps and events from `σ`. -/
inductive Reaches (W : World) (σ : State) : State → Prop
  | refl : Reaches W σ σ
  | step {τ τ'} : Reaches W σ τ → Step τ τ' → Reaches W σ τ'
  | env {τ τ'} : Reaches W σ τ → Env W τ τ' → Reaches W σ τ'

/-! ## The library -/

/-- A lock around a body. -/
def withLock (l : Lock) (body : Prog → Prog) (k : Prog) : Prog := .lock l (body (.unlock l k))

/-- Bodies one after the other. -/
def seq : List (Prog → Prog) → Prog → Prog
  | [], k => k
  | b :: bs, k => b (seq bs k)

/-- Calls of the public API. -/
inductive Call where
  /-- `Controller::nodes` (src/controller.rs:94-101), `Device::node` (src/device.rs:206-209) -/
  | local (i : Nat)
  /-- the methods of `Device` and `Controller` that lock their own mutex and then the node:
  `Device::set_property`, `property`, `set_request_handler` (src/device.rs:220-234), `Device::init`
  (src/device.rs:196-197), `Controller::add_observer`, `search_object`, `post_message`
  (src/controller.rs:88-91, 104-107, 124-127) -/
  | simple (i : Nat)
  /-- `Device::start` (src/device.rs:237-243), `Controller::start` (src/controller.rs:130-136) on a node with
  these servers and `n` observers: every observer is added to every server (src/node.rs:175-199,
  src/transport/unicast_server.rs:47-49) -/
  | start (i : Nat) (servers : List Nat) (n : Nat)
  /-- `Device::stop` (src/device.rs:246-249), `Controller::stop` (src/controller.rs:139-142) and the `drop`s
  (src/device.rs:292-296, src/controller.rs:145-149): every server is stopped (src/node.rs:201-212,
  src/transport/unicast_server.rs:152-161) -/
  | stop (i : Nat) (servers : List Nat)
  /-- `Controller::send_message` (src/controller.rs:115-121) -/
  | send (i : Nat)
  /-- methods of the node itself, called on `node.lock().unwrap()` (src/node.rs:68-173) -/
  | node
  /-- `node.lock().unwrap().start()` (src/node.rs:175-199) -/
  | nodeStart (servers : List Nat) (n : Nat)
  /-- `node.lock().unwrap().stop()` (src/node.rs:201-212) -/
  | nodeStop (servers : List Nat)
  /-- `DeviceNode::new_with_node` (src/device_node.rs:36-47), `ControllerNode::new_with_node`
  (src/controller_node.rs:41-52) -/
  | create (i : Nat)

/-- `Node::start` while the node is locked (src/node.rs:175-199): it may fail before the observers are added;
an announcement does not block. A start that fails half way stops the servers it has set up
(src/transport/manager.rs:71-84). -/
def nodeStartBody (servers : List Nat) (n : Nat) (k : Prog) : Prog :=
  .choice (seq (servers.map (fun s => Prog.stop s)) k)
    (seq (List.replicate n (seq (servers.map (fun s => withLock (.notifier s) Prog.work)))) (.work k))

/-- `Node::stop` while the node is locked (src/node.rs:201-212). -/
def nodeStopBody (servers : List Nat) (k : Prog) : Prog := .work (seq (servers.map (fun s => Prog.stop s)) k)

/-- The blocking actions of a call (the lines are given with each call). -/
def Call.prog : Call → Prog → Prog
  | .local i => withLock (.api i) .work
  | .simple i => withLock (.api i) (withLock .node .work)
  | .start i ss n => withLock (.api i) (withLock .node (nodeStartBody ss n))
  | .stop i ss => withLock (.api i) (withLock .node (nodeStopBody ss))
  | .send i => fun k => .tryLock (.api i) (.unlock (.api i) (withLock (.api i) (withLock .node .work) k)) k
  | .node => withLock .node .work
  | .nodeStart ss n => withLock .node (nodeStartBody ss n)
  | .nodeStop ss => withLock .node (nodeStopBody ss)
  | .create i => fun k => withLock .node .work (withLock (.api i) (withLock .node .work) k)

/-- What a thread of the application does: use its own mutexes (possibly those of its handlers and
observers), and call the library. -/
inductive AppItem where
  | lock (l : Lock)
  | unlock (l : Lock)
  | call (c : Call)
  | panic

/-- The program of a thread of the application. -/
def appProg : List AppItem → Prog
  | [] => .done
  | .lock l :: is => .lock l (appProg is)
  | .unlock l :: is => .unlock l (appProg is)
  | .call c :: is => c.prog (appProg is)
  | .panic :: _ => .panic

/-- A callback of the application: what it does before the library continues. -/
abbrev Callback := Prog → Prog

/-- Observers in the list of a server, each in its own mutex `o`. -/
inductive Observer where
  /-- the node; a request runs the given handler calls, one per handler and property
  (src/request_handler.rs:114-130) -/
  | node (calls : List (Nat × Callback))
  /-- a controller -/
  | controller (i : Nat)
  /-- a device node (src/device_node.rs:122-124) -/
  | device
  /-- an observer of the application -/
  | user (cb : Callback)

/-- `Observer::message_received`: of the node (src/node.rs:449-471; it may panic while cloning the message,
src/node.rs:455), of a controller node (src/controller_node.rs:129-148). -/
def Observer.body : Observer → Prog → Prog
  | .node calls => fun k =>
    .tryLock .node
      (.choice .panic (seq (calls.map (fun c => withLock (.handler c.1) c.2)) (.work (.unlock .node k)))) k
  | .controller i => fun k => .tryLock (.api i) (.work (.unlock (.api i) k)) k
  | .device => .work
  | .user cb => cb

/-- One datagram (src/transport/unicast_server.rs:110-130, src/transport/multicast_server.rs:144-164): decoding
may panic or fail, otherwise the observers are called under the server's notifier mutex
(src/transport/notify_manager.rs:48-54). -/
def messageProg (s : Nat) (obs : List (Nat × Observer)) : Prog :=
  .choice .panic (.choice (.idle s)
    (withLock (.notifier s) (seq (obs.map (fun o => withLock (.obs o.1) o.2.body))) (.idle s)))

/-- A fatal socket error ends the receiver thread (src/transport/unicast_server.rs:132-143): as far as the
others can see, the thread is gone. -/
def errorProg (s : Nat) : Prog := .unlock (.thread s) .done

end Uecho.Locks
