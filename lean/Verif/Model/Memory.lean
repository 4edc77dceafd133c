import Verif.Model.Res
/-!
# Ownership: who keeps whom alive

The library hands out `Arc`s. This module models the cells behind them and the strong references between
them; there are no weak references in the crate. A cell is destroyed (and its destructor runs) when no
strong reference to it is left. The contents of the cells are modelled elsewhere; here a node is only
running or not.

Simplifications: the receiver threads hold the notifiers of their servers (src/transport/unicast_server.rs:108-110);
here the notifiers' observers belong to the node, which gives the threads fewer references than they have. When
several cells have no references left they may be destroyed in any order.
-/
namespace Uecho.Memory

/-- The contents of a cell, as far as they are strong references.
* `node`: `Arc<Mutex<Node>>` with the request handlers, the observers (src/node.rs:33-40) and the observers
  registered with its servers (src/transport/notify_manager.rs:21-23), and whether it is running;
* `plain`: a cell with a fixed content: `Arc<Mutex<Arc<Mutex<..>>>>`, `ControllerNode`
  (src/controller_node.rs:31-34) or `DeviceNode` (src/device_node.rs:26-29);
* `user`: a cell of the application, for instance a handler or an observer. -/
inductive Cell where
  | node (handlers observers servers : List Nat) (running : Bool)
  | plain (to : Nat)
  | user (refs : List Nat)
deriving DecidableEq, Repr

/-- The strong references in a cell. -/
def Cell.refs : Cell → List Nat
  | .node hs os ss _ => hs ++ os ++ ss
  | .plain to => [to]
  | .user rs => rs

/-- The memory: the living cells, the next unused name, and the references the application holds outside
of cells (with multiplicity). -/
structure Heap where
  cells : Nat → Option Cell
  next : Nat
  held : List Nat

/-- The empty memory. -/
def Heap.empty : Heap := ⟨fun _ => none, 0, []⟩

/-- Writing a cell. -/
def Heap.set (h : Heap) (i : Nat) (c : Cell) : Heap :=
  { h with cells := fun j => if j = i then some c else h.cells j }

/-- What can happen to the memory. -/
inductive MemOp where
  | newNode
  | clone (i : Nat)
  | drop (i : Nat)
  | newUser (refs : List Nat)
  | setUser (i : Nat) (refs : List Nat)
  | addHandler (n c : Nat)
  | addObserver (n c : Nat)
  | newOwner (n : Nat)
  | start (n : Nat)
  | stop (n : Nat)
  | dropOwner (i : Nat)
  | destroy (i : Nat)

/-- Allocating a cell. -/
def Heap.alloc (h : Heap) (c : Cell) : Nat × Heap :=
  (h.next, { (h.set h.next c) with next := h.next + 1 })

/-- `Node::new` (src/node.rs:43-59): the node is registered as a request handler of itself, through a cell
that owns a clone of it. -/
def Heap.newNode (h : Heap) : Heap :=
  let n := h.next
  let w := h.next + 1
  let h := { h with next := h.next + 2, held := n :: h.held }
  (h.set n (.node [w] [] [] false)).set w (.plain n)

/-- `Node::add_request_handler` (src/node.rs:111-113), `RequestManager::add_handler`
(src/request_handler.rs:104-107). -/
def Heap.addHandler (h : Heap) (n c : Nat) : Option Heap :=
  match h.cells n with
  | some (.node hs os ss r) => some (h.set n (.node (hs ++ [c]) os ss r))
  | _ => none

/-- `Node::add_observer` (src/node.rs:115-117), `NotifytManager::add_observer`
(src/transport/notify_manager.rs:31-42). -/
def Heap.addObserver (h : Heap) (n c : Nat) : Option Heap :=
  match h.cells n with
  | some (.node hs os ss r) => some (h.set n (.node hs (os ++ [c]) ss r))
  | _ => none

/-- `ControllerNode::new_with_node` (src/controller_node.rs:41-52), `DeviceNode::new_with_node`
(src/device_node.rs:36-47): the node and the new `ControllerNode` or `DeviceNode` become observers of the
node. The application holds the new cell, inside a `Controller` or `Device`. -/
def Heap.newOwner (h : Heap) (n : Nat) : Option Heap := do
  let a := h.alloc (.plain n)
  let h ← a.2.addObserver n a.1
  let k := h.alloc (.plain n)
  let w := k.2.alloc (.plain k.1)
  let h ← w.2.addObserver n w.1
  return { h with held := k.1 :: h.held }

/-- `Node::start` with a successful transport (src/node.rs:175-199): the observers are registered with the
servers. -/
def Heap.start (h : Heap) (n : Nat) : Option Heap :=
  match h.cells n with
  | some (.node hs os ss _) => some (h.set n (.node hs os (ss ++ os) true))
  | _ => none

/-- `Node::stop` (src/node.rs:201-212): the servers are dropped (src/transport/unicast_manager.rs:95-104,
src/transport/multicast_manager.rs:95-104). -/
def Heap.stop (h : Heap) (n : Nat) : Option Heap :=
  match h.cells n with
  | some (.node hs os _ _) => some (h.set n (.node hs os [] false))
  | _ => none

/-- The node of a `ControllerNode` or `DeviceNode`. -/
def Heap.nodeOf (h : Heap) (i : Nat) : Option Nat :=
  match h.cells i with
  | some (.plain n) => some n
  | _ => none

/-- Nothing refers to the cell any more. -/
def Heap.Unreferenced (h : Heap) (i : Nat) : Prop :=
  i ∉ h.held ∧ ∀ j c, h.cells j = some c → i ∉ c.refs

open Classical in
/-- One step. The application can only use references it holds. -/
noncomputable def Heap.step (h : Heap) : MemOp → Option Heap
  | .newNode => some h.newNode
  | .clone i => if i ∈ h.held then some { h with held := i :: h.held } else none
  | .drop i => if i ∈ h.held then some { h with held := h.held.erase i } else none
  /- the application allocates a cell, with clones of references it holds -/
  | .newUser rs => if ∀ r ∈ rs, r ∈ h.held then
      some { (h.alloc (.user rs)).2 with held := h.next :: h.held } else none
  /- the application changes what one of its own cells refers to -/
  | .setUser i rs => match h.cells i with
    | some (.user old) => if ∀ r ∈ rs, r ∈ h.held ∨ r ∈ old then some (h.set i (.user rs)) else none
    | _ => none
  | .addHandler n c => if n ∈ h.held ∧ c ∈ h.held then h.addHandler n c else none
  | .addObserver n c => if n ∈ h.held ∧ c ∈ h.held then h.addObserver n c else none
  | .newOwner n => if n ∈ h.held then h.newOwner n else none
  | .start n => h.start n
  | .stop n => h.stop n
  /- `Drop for Controller` (src/controller.rs:145-149), `Drop for Device` (src/device.rs:292-296): stop, then
  the reference goes -/
  | .dropOwner i => if i ∈ h.held then do
      let n ← h.nodeOf i
      let h ← h.stop n
      return { h with held := h.held.erase i }
    else none
  /- the last reference has gone; for a node, `Drop for Node` (src/node.rs:495-499) stops it first -/
  | .destroy i => if (h.cells i).isSome ∧ h.Unreferenced i then
      some { h with cells := fun j => if j = i then none else h.cells j } else none

/-- A sequence of steps. -/
noncomputable def Heap.run (h : Heap) : List MemOp → Option Heap
  | [] => some h
  | op :: ops => (h.step op).bind (fun h => h.run ops)

end Uecho.Memory
