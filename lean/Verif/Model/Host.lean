import Verif.Model.Node
/-!
# `src/device_node.rs`, `src/device.rs`, `src/remote_node.rs`, `src/controller_node.rs`,
`src/controller.rs`, and the observers of a node

A `DeviceNode` holds nothing but the shared node (its `remote_nodes` field is never used), a `Device`
adds the object code; their methods lock the `DeviceNode` mutex and then the node mutex. The mutexes
appear here only where a failed `try_lock` changes the result; blocking is the subject of
`Verif/Model/Locks.lean`.
-/
namespace Uecho
variable {S : Type}

/-! ## Devices -/

/-- `struct Device` (src/device.rs:163-166) without the reference to its node, which is passed along. -/
structure Device where
  code : UInt32
deriving DecidableEq, Repr

/-- `DeviceNode::new_with_node` (src/device_node.rs:36-47): registers the node and then itself as
observers. -/
def deviceNodeNew (n : Node S) : Node S := (n.addObserver .node).addObserver .device

/-- The object built by `Device::init` (src/device.rs:189-195). Each import draws its own UUID. -/
def deviceObject (b : Build) (db : Database) (uuid₁ uuid₂ : List UInt8) (ω : HashOrder) (code : UInt32) :
    Res Object := do
  let obj := Object.new
  let obj := obj.setCode code
  let r ← obj.addStandardProperties b db uuid₁ (ω.sub 0) superObjectCode
  let r ← r.2.addStandardProperties b db uuid₂ (ω.sub 1) code
  pure r.2

namespace Device

/-- `Device::new_with_node` (src/device.rs:180-187) with `Device::init` (189-198). -/
def newWithNode (b : Build) (db : Database) (uuid₁ uuid₂ : List UInt8) (ω : HashOrder) (code : UInt32)
    (n : Node S) : Res (Device × Node S) := do
  let n := deviceNodeNew n
  let obj ← deviceObject b db uuid₁ uuid₂ ω code
  let n ← n.addObject b obj
  pure (⟨code⟩, n)

/-- `Device::new` (src/device.rs:170-177) with `DeviceNode::new` (src/device_node.rs:32-34). -/
def new (b : Build) (db : Database) (uuid : Nat → List UInt8) (ω : HashOrder) (code : UInt32) (app : S) :
    Res (Device × Node S) := do
  let n ← Node.new b db (uuid 0) (uuid 1) (ω.sub 0) app
  newWithNode b db (uuid 2) (uuid 3) (ω.sub 1) code n

/-- `Device::set_property` (src/device.rs:220-223). -/
def setProperty (d : Device) (n : Node S) (c : UInt8) (data : List UInt8) : Bool × Node S :=
  n.setProperty d.code c data

/-- `Device::property` (src/device.rs:226-229). -/
def property (d : Device) (n : Node S) (c : UInt8) : Option (List UInt8) := n.property d.code c

/-- `Device::set_request_handler` (src/device.rs:231-234) and `DeviceNode::set_request_handler`
(src/device_node.rs:54-57). -/
def setRequestHandler (_ : Device) (n : Node S) (h : Handler S) : Node S := n.addRequestHandler h

/-- `Device::start` (src/device.rs:237-243), `DeviceNode::start` (src/device_node.rs:105-111). -/
def start (_ : Device) (menv uenv : List IfOutcome) (ok : Nat → Bool) (n : Node S) :
    Res (Bool × Node S × List Out) := do
  let r ← n.start menv uenv ok
  if !r.1 then
    return (false, r.2)
  return (true, r.2)

/-- `Device::stop` (src/device.rs:246-249), `DeviceNode::stop` (src/device_node.rs:113-119). -/
def stop (_ : Device) (n : Node S) : Res (Bool × Node S) := do
  let r ← n.stop
  if !r.1 then
    return (false, r.2)
  return (true, r.2)

/-- `impl Drop for Device` (src/device.rs:292-296): stops the node. -/
def drop (d : Device) (n : Node S) : Res (Node S) := do
  let r ← d.stop n
  pure r.2

/-- `Device::set_manufacturer_code` (src/device.rs:253-257). -/
def setManufacturerCode (b : Build) (d : Device) (n : Node S) (code : UInt32) : Res (Bool × Node S) := do
  let buf ← bytesFromU32 b code (List.replicate 3 0)
  pure (d.setProperty n 0x8A buf)

/-- `Device::set_operating_status` (src/device.rs:259-266). -/
def setOperatingStatus (d : Device) (n : Node S) (status : Bool) : Bool × Node S :=
  d.setProperty n 0x80 [if status then 0x30 else 0x31]

/-- `Device::set_installation_location` (src/device.rs:268-270). -/
def setInstallationLocation (d : Device) (n : Node S) (loc : UInt8) : Bool × Node S :=
  d.setProperty n 0x81 [loc]

/-- `Device::set_standard_version` (src/device.rs:272-276). -/
def setStandardVersion (d : Device) (n : Node S) (ver : UInt8) : Bool × Node S :=
  d.setProperty n 0x82 [0, 0, ver, 0]

/-- `Device::standard_version` (src/device.rs:278-280). -/
def standardVersion (d : Device) (n : Node S) : Option (List UInt8) := d.property n 0x82

/-- `Device::set_fault_status` (src/device.rs:282-289). -/
def setFaultStatus (d : Device) (n : Node S) (status : Bool) : Bool × Node S :=
  d.setProperty n 0x88 [if status then 0x41 else 0x42]

end Device

/-! ## Remote nodes -/

/-- `struct RemoteNode` (src/remote_node.rs:24-27). -/
structure RemoteNode where
  addr : SocketAddr
  objects : List Object

namespace RemoteNode

/-- `RemoteNode::new` (src/remote_node.rs:30-35). -/
def new : RemoteNode := ⟨⟨.v4 0, 0⟩, []⟩

/-- `RemoteNode::set_addr` (src/remote_node.rs:50-52). -/
def setAddr (r : RemoteNode) (a : SocketAddr) : RemoteNode := { r with addr := a }

/-- `RemoteNode::add_object` (src/remote_node.rs:54-57). -/
def addObject (r : RemoteNode) (o : Object) : RemoteNode := { r with objects := r.objects ++ [o] }

/-- `RemoteNode::find_object` (src/remote_node.rs:67-74). -/
def findObject (r : RemoteNode) (code : UInt32) : Option Object := Uecho.findObject r.objects code

/-- `RemoteNode::parse` (src/remote_node.rs:76-88). -/
def parse (b : Build) (r : RemoteNode) (msg : Message) : Res RemoteNode :=
  if !msg.isNodeProfileMessage then .ok r
  else do
    let codes ← nodeProfileObjectCodes b msg.properties
    pure (codes.foldl (fun r c => r.addObject (Object.fromCode c)) r)

/-- `RemoteNode::from_message` (src/remote_node.rs:37-44). -/
def fromMessage (b : Build) (msg : Message) : Res RemoteNode := parse b ⟨msg.sender, []⟩ msg

/-- The loop of `impl Clone for RemoteNode` (src/remote_node.rs:97-99). -/
def cloneLoop (b : Build) : HashOrder → RemoteNode → List Object → Res RemoteNode
  | _, r, [] => .ok r
  | ω, r, o :: os => do
    let c ← o.clone b (ω.sub 0)
    cloneLoop b (ω.sub 1) (r.addObject c) os

/-- `impl Clone for RemoteNode` (src/remote_node.rs:91-102). -/
def clone (b : Build) (ω : HashOrder) (r : RemoteNode) : Res RemoteNode :=
  cloneLoop b ω ⟨r.addr, []⟩ r.objects

/-- `impl PartialEq for RemoteNode` (src/remote_node.rs:104-108). -/
def eq (r r' : RemoteNode) : Bool := r.addr == r'.addr

/-- What `impl Hash for RemoteNode` (src/remote_node.rs:112-116) feeds into the hasher. -/
def hashInput (r : RemoteNode) : SocketAddr := r.addr

end RemoteNode

/-! ## Controllers -/

/-- Everything that lives on one host: the node, the `remote_nodes` of its controller (src/controller_node.rs:31-34;
at most one controller per node is modelled), and (ghost) the messages observers of the application
have been called with. -/
structure Host (S : Type) where
  node : Node S
  remotes : List RemoteNode
  seen : List (Nat × Message)

/-- `ControllerNode::new_with_node` (src/controller_node.rs:41-52): registers the node and then itself as
observers. -/
def controllerNodeNew (n : Node S) : Node S := (n.addObserver .node).addObserver .controller

/-- `ControllerNode::replace_remote_node` (src/controller_node.rs:64-74): removes the first entry with the
same address and appends the new one. -/
def replaceRemoteNode (l : List RemoteNode) (r : RemoteNode) : List RemoteNode :=
  l.eraseP (fun f => f.eq r) ++ [r]

/-- The loop over the remote node's objects (src/controller_node.rs:141-144). -/
def importRemoteObjects (b : Build) (db : Database) : HashOrder → (Nat → List UInt8) → List Object →
    Res (List Object)
  | _, _, [] => .ok []
  | ω, uuid, o :: os => do
    let r ← o.addStandardProperties b db (uuid 0) (ω.sub 0) superObjectCode
    let r ← r.2.addStandardProperties b db (uuid 1) (ω.sub 1) r.2.code
    let os' ← importRemoteObjects b db (ω.sub 2) (fun i => uuid (i + 2)) os
    pure (r.2 :: os')

/-- `impl Observer for Arc<Mutex<ControllerNode>>` (src/controller_node.rs:129-148); `free`: the
controller's mutex was free. -/
def observeController (b : Build) (db : Database) (ω : HashOrder) (uuid : Nat → List UInt8) (free : Bool)
    (remotes : List RemoteNode) (msg : Message) : Res (List RemoteNode) :=
  if !free then .ok remotes
  else if !msg.isNodeProfileMessage then .ok remotes
  else do
    let r ← RemoteNode.fromMessage b msg
    let objs ← importRemoteObjects b db (ω.sub 0) (fun i => uuid (i + 2)) r.objects
    let np ← nodeProfileNew b db (uuid 0) (uuid 1) (ω.sub 1)
    pure (replaceRemoteNode remotes (({ r with objects := objs }).addObject np))

/-- What the environment contributes to one call of an observer. -/
structure CallEnv where
  nodeFree : Bool
  ctrlFree : Bool
  ω : HashOrder
  uuid : Nat → List UInt8
  ok : Nat → Bool

namespace Host

/-- `Controller::new` / `Controller::new_with_node` (src/controller.rs:75-86), `ControllerNode::new`
(src/controller_node.rs:37-39). -/
def newController (n : Node S) : Host S := ⟨controllerNodeNew n, [], []⟩

/-- A node without controller. -/
def ofNode (n : Node S) : Host S := ⟨n, [], []⟩

/-- `Controller::add_observer` (src/controller.rs:88-91), `ControllerNode::add_observer`
(src/controller_node.rs:54-57). -/
def addObserver (h : Host S) (o : ObserverRef) : Host S := { h with node := h.node.addObserver o }

/-- The clones made by `Controller::nodes` (src/controller.rs:94-101). -/
def nodesLoop (b : Build) : HashOrder → List RemoteNode → Res (List RemoteNode)
  | _, [] => .ok []
  | ω, r :: rs => do
    let c ← r.clone b (ω.sub 0)
    let cs ← nodesLoop b (ω.sub 1) rs
    pure (c :: cs)

/-- `Controller::nodes` (src/controller.rs:94-101). -/
def nodes (b : Build) (ω : HashOrder) (h : Host S) : Res (List RemoteNode) := nodesLoop b ω h.remotes

/-- `Controller::search_object` (src/controller.rs:104-107), `ControllerNode::search_object`
(src/controller_node.rs:84-90). -/
def searchObject (ok : Nat → Bool) (h : Host S) (code : UInt32) : Bool × Host S × List Out :=
  let msg := searchMessage
  let msg := msg.setSeoj nodeProfileCode
  let msg := msg.setDeoj code
  let r := h.node.notify ok msg
  (r.1, { h with node := r.2.2.1 }, r.2.2.2)

/-- `Controller::search` (src/controller.rs:110-112). -/
def search (ok : Nat → Bool) (h : Host S) : Bool × Host S × List Out := h.searchObject ok nodeProfileCode

/-- `Controller::send_message` (src/controller.rs:115-121), `ControllerNode::send_message`
(src/controller_node.rs:96-100); `free`: the controller's mutex was free at the `try_lock`. The result
contains the caller's message afterwards. -/
def sendMessage (ok : Nat → Bool) (free : Bool) (h : Host S) (r : RemoteNode) (msg : Message) :
    Bool × Message × Host S × List Out :=
  if !free then (false, msg, h, [])
  else
    let msg := msg.setSeoj nodeProfileCode
    let s := h.node.sendMessage ok ⟨r.addr.ip, port⟩ msg
    (s.1, s.2.1, { h with node := s.2.2.1 }, s.2.2.2)

/-- `Controller::post_message` (src/controller.rs:124-127), `ControllerNode::post_message`
(src/controller_node.rs:102-106). -/
def postMessage (ok : Nat → Bool) (h : Host S) (r : RemoteNode) (msg : Message) :
    Nat × Message × Host S × List Out :=
  let msg := msg.setSeoj nodeProfileCode
  let s := h.node.postMessage ok ⟨r.addr.ip, port⟩ msg
  (s.1, s.2.1, { h with node := s.2.2.1 }, s.2.2.2)

/-- `Controller::start` (src/controller.rs:130-136), `ControllerNode::start`
(src/controller_node.rs:112-118). -/
def start (menv uenv : List IfOutcome) (ok : Nat → Bool) (h : Host S) : Res (Bool × Host S × List Out) := do
  let r ← h.node.start menv uenv ok
  if !r.1 then
    return (false, { h with node := r.2.1 }, r.2.2)
  return (true, { h with node := r.2.1 }, r.2.2)

/-- `Controller::stop` (src/controller.rs:139-142), `ControllerNode::stop`
(src/controller_node.rs:120-126). -/
def stop (h : Host S) : Res (Bool × Host S) := do
  let r ← h.node.stop
  if !r.1 then
    return (false, { h with node := r.2 })
  return (true, { h with node := r.2 })

/-! ## Received messages -/

/-- One call `observer.message_received(msg)`. Observers of the application are modelled as recording the
message. -/
def invoke (b : Build) (db : Database) (e : CallEnv) (msg : Message) (h : Host S) :
    ObserverRef → Res (Host S × List Out)
  | .node => do
    let r ← h.node.observeTry b e.ω e.ok e.nodeFree msg
    pure ({ h with node := r.1 }, r.2)
  | .controller => do
    let r ← observeController b db e.ω e.uuid e.ctrlFree h.remotes msg
    pure ({ h with remotes := r }, [])
  /- `impl Observer for Arc<Mutex<DeviceNode>>` (src/device_node.rs:122-124) does nothing -/
  | .device => .ok (h, [])
  | .user k => .ok ({ h with seen := h.seen ++ [(k, msg)] }, [])

/-- `NotifytManager::notify` (src/transport/notify_manager.rs:48-54): the observers of one server are called
one after the other. -/
def notifyObservers (b : Build) (db : Database) (env : Nat → CallEnv) (msg : Message) (h : Host S) :
    List ObserverRef → Res (Host S × List Out)
  | [] => .ok (h, [])
  | o :: os => do
    let r ← h.invoke b db (env 0) msg o
    let r' ← notifyObservers b db (fun i => env (i + 1)) msg r.1 os
    pure (r'.1, r.2 ++ r'.2)

/-- One server handing a sequence of messages to its observers (src/transport/unicast_server.rs:107-146,
src/transport/multicast_server.rs:141-180). -/
def serve (b : Build) (db : Database) (obs : List ObserverRef) (env : Nat → Nat → CallEnv) (h : Host S) :
    List Message → Res (Host S × List Out)
  | [] => .ok (h, [])
  | m :: ms => do
    let r ← h.notifyObservers b db (env 0) m obs
    let r' ← serve b db obs (fun i => env (i + 1)) r.1 ms
    pure (r'.1, r.2 ++ r'.2)

end Host

/-! ## Histories -/

/-- One atomic step on a host: a call of one observer by a receiver thread, or a call of the public API
of the controller or of the node. Receiver threads and the application may interleave in any order;
each of these steps runs while the respective mutex is held. -/
inductive HostOp (S : Type) where
  | call (o : ObserverRef) (e : CallEnv) (msg : Message)
  | node (op : Op S)
  | search (code : UInt32) (ok : Nat → Bool)
  | send (r : RemoteNode) (msg : Message) (free : Bool) (ok : Nat → Bool)
  | post (r : RemoteNode) (msg : Message) (ok : Nat → Bool)
  | start (menv uenv : List IfOutcome) (ok : Nat → Bool)
  | stop

/-- Effect of one step (each case is the function of that name above; not from the repository). -/
def Host.step {S : Type} (b : Build) (db : Database) (h : Host S) : HostOp S → Res (Host S × List Out)
  | .call o e msg => h.invoke b db e msg o
  | .node op => do
    let r ← h.node.step b op
    pure ({ h with node := r.1 }, r.2)
  | .search code ok => let r := h.searchObject ok code; .ok r.2
  | .send r msg free ok => let x := h.sendMessage ok free r msg; .ok x.2.2
  | .post r msg ok => let x := h.postMessage ok r msg; .ok x.2.2
  | .start menv uenv ok => do
    let r ← h.start menv uenv ok
    pure r.2
  | .stop => do
    let r ← h.stop
    pure (r.2, [])

/-- Effect of a history (not from the repository). -/
def Host.run {S : Type} (b : Build) (db : Database) (h : Host S) : List (HostOp S) → Res (Host S × List Out)
  | [] => .ok (h, [])
  | op :: ops => do
    let r ← h.step b db op
    let r' ← Host.run b db r.1 ops
    pure (r'.1, r.2 ++ r'.2)

end Uecho
