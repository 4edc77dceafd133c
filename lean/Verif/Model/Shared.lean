import Verif.Model.Host
/-!
# Any number of controllers, devices and observers on one node

`Controller::new_with_node` (src/controller.rs:82-86) and `Device::new_with_node` (src/device.rs:180-187) can be called
any number of times with the same node. `Verif/Model/Host.lean` has one controller per node; here there are any number.

A node keeps its observers as trait objects and cannot tell them apart; in this file the name `.user i` stands for the
`i`-th observer object that was made, of whatever kind. The names `.controller` and `.device` of `ObserverRef` are not
used here.
-/
namespace Uecho
variable {S : Type}

/-- An observer object other than the node: a `ControllerNode` with its `remote_nodes` (src/controller_node.rs:31-34), a
`DeviceNode` (src/device_node.rs:26-29, which ignores messages), or an observer of the application, modelled as
recording the messages it gets. -/
inductive Watcher where
  | controller (remotes : List RemoteNode)
  | device
  | app (seen : List Message)

/-- A node and the observer objects made for it, in order of creation. -/
structure MultiHost (S : Type) where
  node : Node S
  watchers : List Watcher

namespace MultiHost

/-- The `remote_nodes` of the controller with number `k`. -/
def remotes (s : MultiHost S) (k : Nat) : List RemoteNode :=
  match s.watchers[k]? with
  | some (.controller r) => r
  | _ => []

/-- The messages recorded by the application's observer with number `k`. -/
def seenBy (s : MultiHost S) (k : Nat) : List Message :=
  match s.watchers[k]? with
  | some (.app ms) => ms
  | _ => []

/-- The controller with number `k` and its node, as in `Verif/Model/Host.lean`; the methods of a controller see nothing
else. -/
def host (s : MultiHost S) (k : Nat) : Host S := ⟨s.node, s.remotes k, []⟩

/-- `Controller::new_with_node` (src/controller.rs:82-86), `ControllerNode::new_with_node`
(src/controller_node.rs:41-52): registers the node and then itself as observers. -/
def newController (s : MultiHost S) : MultiHost S :=
  ⟨(s.node.addObserver .node).addObserver (.user s.watchers.length), s.watchers ++ [.controller []]⟩

/-- `Device::new_with_node` (src/device.rs:180-187) with `DeviceNode::new_with_node` (src/device_node.rs:36-47) and
`Device::init` (src/device.rs:189-198). -/
def newDevice (b : Build) (db : Database) (uuid₁ uuid₂ : List UInt8) (ω : HashOrder) (code : UInt32)
    (s : MultiHost S) : Res (MultiHost S) := do
  let n := (s.node.addObserver .node).addObserver (.user s.watchers.length)
  let obj ← deviceObject b db uuid₁ uuid₂ ω code
  let n ← n.addObject b obj
  pure ⟨n, s.watchers ++ [.device]⟩

/-- The application makes an observer and registers it with `Node::add_observer` (src/node.rs:115-117) or
`Controller::add_observer` (src/controller.rs:88-91), which passes it on to the node. -/
def newObserver (s : MultiHost S) : MultiHost S :=
  ⟨s.node.addObserver (.user s.watchers.length), s.watchers ++ [.app []]⟩

/-- `Controller::nodes` (src/controller.rs:94-101) of the controller with number `k`. -/
def nodes (b : Build) (ω : HashOrder) (s : MultiHost S) (k : Nat) : Res (List RemoteNode) := (s.host k).nodes b ω

/-- One call `observer.message_received(msg)`: src/node.rs:449-471, src/controller_node.rs:129-148,
src/device_node.rs:122-124. -/
def invoke (b : Build) (db : Database) (e : CallEnv) (msg : Message) (s : MultiHost S) :
    ObserverRef → Res (MultiHost S × List Out)
  | .node => do
    let r ← s.node.observeTry b e.ω e.ok e.nodeFree msg
    pure ({ s with node := r.1 }, r.2)
  | .user k =>
    match s.watchers[k]? with
    | some (.controller l) => do
      let r ← observeController b db e.ω e.uuid e.ctrlFree l msg
      pure ({ s with watchers := s.watchers.set k (.controller r) }, [])
    | some (.app ms) => .ok ({ s with watchers := s.watchers.set k (.app (ms ++ [msg])) }, [])
    | _ => .ok (s, [])
  | .controller => .ok (s, [])
  | .device => .ok (s, [])

/-- `NotifytManager::notify` (src/transport/notify_manager.rs:48-54). -/
def notifyObservers (b : Build) (db : Database) (env : Nat → CallEnv) (msg : Message) (s : MultiHost S) :
    List ObserverRef → Res (MultiHost S × List Out)
  | [] => .ok (s, [])
  | o :: os => do
    let r ← s.invoke b db (env 0) msg o
    let r' ← notifyObservers b db (fun i => env (i + 1)) msg r.1 os
    pure (r'.1, r.2 ++ r'.2)

/-- One server handing a sequence of messages to its observers (src/transport/unicast_server.rs:107-146,
src/transport/multicast_server.rs:141-180). -/
def serve (b : Build) (db : Database) (obs : List ObserverRef) (env : Nat → Nat → CallEnv) (s : MultiHost S) :
    List Message → Res (MultiHost S × List Out)
  | [] => .ok (s, [])
  | m :: ms => do
    let r ← s.notifyObservers b db (env 0) m obs
    let r' ← serve b db obs (fun i => env (i + 1)) r.1 ms
    pure (r'.1, r.2 ++ r'.2)

end MultiHost

/-- One step: an object is made, an observer is called, or a method of the node or of the controller with number `k` is
called. The steps of all threads may come in any order. -/
inductive SharedOp (S : Type) where
  | newController
  | newDevice (uuid₁ uuid₂ : List UInt8) (ω : HashOrder) (code : UInt32)
  | newObserver
  | call (o : ObserverRef) (e : CallEnv) (msg : Message)
  | node (op : Op S)
  | search (k : Nat) (code : UInt32) (ok : Nat → Bool)
  | send (k : Nat) (r : RemoteNode) (msg : Message) (free : Bool) (ok : Nat → Bool)
  | post (k : Nat) (r : RemoteNode) (msg : Message) (ok : Nat → Bool)
  | start (k : Nat) (menv uenv : List IfOutcome) (ok : Nat → Bool)
  | stop (k : Nat)
  /-- `impl Drop for Controller` (src/controller.rs:145-149): stops the node; the `ControllerNode` remains registered. -/
  | drop (k : Nat)

/-- Effect of one step (each case is the function of that name above or of the controller's `Host`; not from the
repository). -/
def MultiHost.step {S : Type} (b : Build) (db : Database) (s : MultiHost S) : SharedOp S → Res (MultiHost S × List Out)
  | .newController => .ok (s.newController, [])
  | .newDevice uuid₁ uuid₂ ω code => do
    let s ← s.newDevice b db uuid₁ uuid₂ ω code
    pure (s, [])
  | .newObserver => .ok (s.newObserver, [])
  | .call o e msg => s.invoke b db e msg o
  | .node op => do
    let r ← s.node.step b op
    pure ({ s with node := r.1 }, r.2)
  | .search k code ok => let r := (s.host k).searchObject ok code; .ok ({ s with node := r.2.1.node }, r.2.2)
  | .send k r msg free ok => let x := (s.host k).sendMessage ok free r msg; .ok ({ s with node := x.2.2.1.node }, x.2.2.2)
  | .post k r msg ok => let x := (s.host k).postMessage ok r msg; .ok ({ s with node := x.2.2.1.node }, x.2.2.2)
  | .start k menv uenv ok => do
    let r ← (s.host k).start menv uenv ok
    pure ({ s with node := r.2.1.node }, r.2.2)
  | .stop k => do
    let r ← (s.host k).stop
    pure ({ s with node := r.2.node }, [])
  | .drop k => do
    let r ← (s.host k).stop
    pure ({ s with node := r.2.node }, [])

/-- Effect of a history (not from the repository). -/
def MultiHost.run {S : Type} (b : Build) (db : Database) (s : MultiHost S) : List (SharedOp S) → Res (MultiHost S × List Out)
  | [] => .ok (s, [])
  | op :: ops => do
    let r ← s.step b db op
    let r' ← MultiHost.run b db r.1 ops
    pure (r'.1, r.2 ++ r'.2)

end Uecho
