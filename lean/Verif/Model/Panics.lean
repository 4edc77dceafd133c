import Verif.Model.Node
/-!
# Request handlers that panic

`Model/Node` has request handlers that return. Here they may panic, and they are what they are in the code: objects of the
process behind a mutex each (`RequestHandlerObject`, src/request_handler.rs:89), which several nodes may share. A panic
unwinds the receiver thread: every mutex it holds is poisoned, and the copy of the object is dropped.
-/
namespace Uecho

/-- How a call of the application's `property_request_received` (src/request_handler.rs:84-86) ends; in both cases it may
have changed the state of the application. -/
inductive HandlerEnd (S : Type) where
  | returns (accepted : Bool) (o : Object) (s : S)
  | panics (s : S)

/-- A request handler that may panic (src/request_handler.rs:84-86). -/
abbrev PHandler (S : Type) := S → Object → ESV → WProperty → HandlerEnd S

/-- A handler registered at a node: the node's own (src/node.rs:53-56), whose mutex is never poisoned because it does not
panic, or a handler object of the application. -/
inductive HandlerRef where
  | builtin
  | user (k : Nat)
deriving DecidableEq, Repr

/-- The handler objects of the application: their code, which of their mutexes are poisoned, and the state of the
application. -/
structure Handlers (S : Type) where
  code : Nat → PHandler S
  poisoned : Nat → Bool
  app : S

namespace Handlers
variable {S : Type}

/-- `handler.lock().unwrap().property_request_received(deoj, esv, prop)` (src/request_handler.rs:118-121); `none` is a
panic: of `unwrap` if the mutex is poisoned, or of the handler, which poisons it. -/
def call (H : Handlers S) (r : HandlerRef) (o : Object) (esv : ESV) (p : WProperty) : Option (Bool × Object) × Handlers S :=
  match r with
  | .builtin => (some ((nodeHandler H.app o esv p).1, (nodeHandler H.app o esv p).2.1), H)
  | .user k =>
    if H.poisoned k then (none, H)
    else match H.code k H.app o esv p with
      | .returns a o' s => (some (a, o'), { H with app := s })
      | .panics s => (none, { H with app := s, poisoned := fun k' => if k' = k then true else H.poisoned k' })

/-- The loop over the properties (src/request_handler.rs:116-125); `all` is `all_requests_accepted`. -/
def askAll (H : Handlers S) (r : HandlerRef) (esv : ESV) (o : Object) (all : Bool) :
    List WProperty → Option (Bool × Object) × Handlers S
  | [] => (some (all, o), H)
  | p :: ps =>
    match H.call r o esv p with
    | (none, H') => (none, H')
    | (some (a, o'), H') => askAll H' r esv o' (if !a then false else all) ps

/-- The loop over the handlers (src/request_handler.rs:115-130); `acc` is `request_accepted`. -/
def askEach (H : Handlers S) (msg : Message) (o : Object) (acc : Bool) :
    List HandlerRef → Option (Bool × Object) × Handlers S
  | [] => (some (acc, o), H)
  | r :: rs =>
    match H.askAll r msg.esv o true msg.properties with
    | (none, H') => (none, H')
    | (some (a, o'), H') => askEach H' msg o' (if a then true else acc) rs

/-- `RequestManager::property_request_received` (src/request_handler.rs:109-132). -/
def requestReceived (H : Handlers S) (refs : List HandlerRef) (msg : Message) (o : Object) :
    Option (Bool × Object) × Handlers S :=
  if refs.length = 0 then (some (true, o), H) else H.askEach msg o false refs

end Handlers

/-- A node whose handlers are handler objects. (`node.handlers` and `node.app` are not used.) -/
structure PNode where
  node : Node Unit
  refs : List HandlerRef

/-- What a call leaves behind, whether it has panicked or not. -/
structure Left (S A : Type) where
  result : Option A
  node : Node Unit
  handlers : Handlers S

namespace PNode
variable {S : Type}

/-- `Node::message_received` (src/node.rs:276-446); compare `Node.messageReceived`. -/
def messageReceived (b : Build) (ω : HashOrder) (H : Handlers S) (n : PNode) (req : Message) : Left S (Option Message) :=
  if req.esv.isResponse then ⟨some none, n.node, H⟩
  else match findObject n.node.objects req.deoj with
  | none => ⟨some none, n.node, H⟩
  | some dst =>
    if !req.esv.isRequest then ⟨some none, n.node, H⟩
    else if !Node.validRequest dst req then ⟨some (some (responseErrorMessage req)), n.node, H⟩
    else match dst.clone b (ω.sub 0) with
    | .panic => ⟨none, n.node, H⟩
    | .ok copy =>
      match H.requestReceived n.refs req copy with
      | (none, H') => ⟨none, n.node, H'⟩
      | (some (false, _), H') => ⟨some (some (responseErrorMessage req)), n.node, H'⟩
      | (some (true, copy'), H') =>
        let objs := updateObject req.deoj (fun d => Node.copyBack d (copy'.values (ω.sub 1).here)) n.node.objects
        let objs := updateObject req.deoj (fun d => Node.writeRequestData d req) objs
        match findObject objs req.deoj with
        | none => ⟨some none, { n.node with objects := objs }, H'⟩
        | some dst => ⟨some (dst.messageReceived req), { n.node with objects := objs }, H'⟩

/-- `impl Observer for Arc<Mutex<Node>>` (src/node.rs:449-471) once the lock has been obtained: what was put out, or `none`
after a panic, and the node left behind; compare `Node.observe`. (Nothing is put out before a panic: a response that is
delivered to a post is not a request, and nothing after its delivery panics, `C94_panic`.) -/
def observe (b : Build) (ω : HashOrder) (ok : Nat → Bool) (H : Handlers S) (n : PNode) (msg : Message) : Left S (List Out) :=
  match n.node.observePost msg with
  | .panic => ⟨none, n.node, H⟩
  | .ok p =>
    let r := messageReceived b ω H { n with node := p.1 } msg
    match r.result with
    | none => ⟨none, r.node, r.handlers⟩
    | some none => ⟨some p.2, r.node, r.handlers⟩
    | some (some res) =>
      if res.esv.isResponse then
        if res.esv.isUnicastResponse then
          let s := r.node.sendMessage ok ⟨msg.sender.ip, port⟩ res
          ⟨some (p.2 ++ s.2.2.2), s.2.2.1, r.handlers⟩
        else
          let s := r.node.notify ok res
          ⟨some (p.2 ++ s.2.2.2), s.2.2.1, r.handlers⟩
      else ⟨some p.2, r.node, r.handlers⟩

end PNode

/-! ## The nodes of a process -/

/-- The nodes of a process, which of their mutexes are poisoned, and the handler objects. -/
structure Process (S : Type) where
  nodes : Nat → PNode
  poisoned : Nat → Bool
  handlers : Handlers S

/-- What happens in a process. -/
inductive ProcOp where
  /-- a receiver thread calls the observer of node `i`, whose mutex is free -/
  | receive (i : Nat) (msg : Message) (ω : HashOrder) (ok : Nat → Bool)
  /-- a call of a method of node `i`, or of a device on it, by the application; if it panics it leaves the node in some
  state `left`, about which nothing is assumed -/
  | call (i : Nat) (op : Op Unit) (left : Node Unit)
  /-- `add_request_handler` (src/node.rs:111-113) on node `i` with the handler object `k` -/
  | register (i : Nat) (k : Nat)
  /-- `Mutex::clear_poison` of the mutex of node `i`, which the application can reach (`Device::node`, src/device.rs:206-209) -/
  | clear (i : Nat)
  /-- `Mutex::clear_poison` of the mutex of handler object `k` -/
  | clearHandler (k : Nat)

/-- What was put out by a step, or that it panicked. -/
abbrev ProcOut := Option (List Out)

namespace Process
variable {S : Type}

/-- Replace node `i` (not from the repository). -/
def setNode (P : Process S) (i : Nat) (n : PNode) : Process S :=
  { P with nodes := fun j => if j = i then n else P.nodes j }

/-- The mutex of node `i` is (`v`) or is not poisoned (not from the repository). -/
def setPoison (P : Process S) (i : Nat) (v : Bool) : Process S :=
  { P with poisoned := fun j => if j = i then v else P.poisoned j }

/-- One step. `try_lock` on a poisoned mutex fails (src/node.rs:451-453); a method of a device calls `lock().unwrap()`,
which panics (src/device_node.rs:54-114). A panic while the mutex is held poisons it. -/
def step (b : Build) (P : Process S) : ProcOp → ProcOut × Process S
  | .receive i msg ω ok =>
    if P.poisoned i then (some [], P)
    else
      let l := PNode.observe b ω ok P.handlers (P.nodes i) msg
      let P' := { P.setNode i { P.nodes i with node := l.node } with handlers := l.handlers }
      match l.result with
      | some outs => (some outs, P')
      | none => (none, P'.setPoison i true)
  | .call i op left =>
    if P.poisoned i then (none, P)
    else match (P.nodes i).node.step b op with
      | .ok r => (some r.2, P.setNode i { P.nodes i with node := r.1 })
      | .panic => (none, (P.setNode i { P.nodes i with node := left }).setPoison i true)
  | .register i k =>
    if P.poisoned i then (none, P)
    else (some [], P.setNode i { P.nodes i with refs := (P.nodes i).refs ++ [.user k] })
  | .clear i => (some [], P.setPoison i false)
  | .clearHandler k =>
    (some [], { P with handlers := { P.handlers with poisoned := fun k' => if k' = k then false else P.handlers.poisoned k' } })

/-- A sequence of steps; the outcomes in order (not from the repository). -/
def run (b : Build) (P : Process S) : List ProcOp → List ProcOut × Process S
  | [] => ([], P)
  | op :: ops =>
    let r := P.step b op
    let r' := run b r.2 ops
    (r.1 :: r'.1, r'.2)

end Process
end Uecho
