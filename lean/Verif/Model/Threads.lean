import Verif.Model.Host
/-!
# Threads that share a host

In `Model/Host` every call of the library and every call of an observer is one atomic step. In the code a call is a
sequence of reads, writes and transmissions, during which the other threads run; what makes it behave like one step is
that it holds the mutex of the data it touches from its first access to its last. This module models that: calls are
arbitrary programs of indivisible accesses, executed in any interleaving under the semantics of `std::sync::Mutex`.
-/
namespace Uecho

/-- The code of a critical section: a program of indivisible accesses to the data `X` behind the mutex. An access
replaces the data, transmits, and continues depending on what it saw; local variables live in the continuation, and
loops are unfolded (the depth may depend on what was read). -/
inductive Body (X O R : Type) where
  | ret (r : R)
  | access (f : X → X × List O) (k : X → Body X O R)
  | panic

/-- What a critical section does when nobody interferes. -/
def Body.run {X O R : Type} : Body X O R → X → Res (R × X × List O)
  | .ret r, x => .ok (r, x, [])
  | .access f k, x => do
    let r ← (k x).run (f x).1
    pure (r.1, r.2.1, (f x).2 ++ r.2.2)
  | .panic, _ => .panic

/-- A program whose calls are critical sections: for every call the data it touches, the mutexes it holds while it does,
the code it executes holding them, which of them it locks with `lock().unwrap()`, in this order, on which it gives up when
it is taken (`try_lock`), and the result it then has. -/
structure Program (A G O R : Type) (X : G → Type) where
  guard : A → G
  holds : A → List G
  guarded : ∀ a, guard a ∈ holds a
  code : (a : A) → Body (X (guard a)) O R
  locks : A → List G
  locked : ∀ a, ∀ g ∈ locks a, g ∈ holds a
  tries : A → Option G
  busy : A → R

variable {A G O R : Type} {X : G → Type}

/-- What a thread is doing; calls are numbered in the order in which they are made. -/
inductive Doing (A R O : Type) {G : Type} (X : G → Type) (guard : A → G) where
  | idle
  /-- it has made the call and waits for the mutexes -/
  | waiting (i : Nat) (a : A)
  /-- it holds the mutexes and still has to execute `rest` -/
  | inside (i : Nat) (a : A) (rest : Body (X (guard a)) O R)
  /-- it has released the mutexes and is about to return -/
  | leaving (i : Nat) (a : A) (r : R)
  /-- it has panicked in a call -/
  | crashed (i : Nat) (a : A)

/-- The call a thread has made and that has not returned (not from the repository). -/
def Doing.call {guard : A → G} : Doing A R O X guard → Option (Nat × A)
  | .waiting i a => some (i, a)
  | .inside i a _ => some (i, a)
  | .leaving i a _ => some (i, a)
  | _ => none

/-- What the application can see of an execution: calls and their returns. -/
inductive Event (A R : Type) where
  | invoke (i : Nat) (a : A)
  | returns (i : Nat) (r : R)

/-- All threads, the data behind the mutexes, and what has been transmitted while holding each. -/
structure Shared (P : Program A G O R X) where
  data : (g : G) → X g
  owner : G → Option Nat
  poisoned : G → Bool
  outs : G → List O
  doing : Nat → Doing A R O X P.guard
  calls : Nat
  trace : List (Event A R)

variable {P : Program A G O R X} [DecidableEq G]

/-- `f` with the value at `g` replaced. -/
def put {Y : G → Type} (f : (g : G) → Y g) (g : G) (y : Y g) : (g : G) → Y g :=
  fun g' => if h : g' = g then h ▸ y else f g'

/-- Thread `t` goes on with `d` (not from the repository). -/
def Shared.now (σ : Shared P) (t : Nat) (d : Doing A R O X P.guard) : Shared P :=
  { σ with doing := fun t' => if t' = t then d else σ.doing t' }

/-- One step of one thread (semantics of `std::sync::Mutex`). Every API call of `Device` and `Controller`, and the
observers of a node and of a controller, consist of these steps: they lock the mutex of the node
(src/device_node.rs:50-114, src/node.rs:451), that of the controller's data (src/controller.rs:96,
src/controller_node.rs:131), or first that of the controller's data and then that of the node (src/controller.rs:89-141,
src/controller_node.rs:55-121), keep what they lock, and touch nothing else. The mutexes are modelled as being taken at
once and released at once: a thread that holds the first and waits for the second can here be overtaken by others, which
only adds interleavings; that meanwhile others find the first one taken is in `refuse`. The mutex of a `DeviceNode` is
always taken together with the one of its node, and is left out. -/
inductive TStep : Shared P → Shared P → Prop
  | invoke {σ : Shared P} {t} (a : A) : σ.doing t = .idle →
      TStep σ (({ σ with calls := σ.calls + 1, trace := σ.trace ++ [.invoke σ.calls a] } : Shared P).now t (.waiting σ.calls a))
  | acquire {σ : Shared P} {t i a} : σ.doing t = .waiting i a → (∀ g ∈ P.holds a, σ.owner g = none) →
      (∀ g ∈ P.holds a, σ.poisoned g = false) →
      TStep σ (({ σ with owner := fun g => if g ∈ P.holds a then some t else σ.owner g } : Shared P).now t
        (.inside i a (P.code a)))
  /-- `try_lock` fails, because the mutex is poisoned or another call that uses it is under way -/
  | refuse {σ : Shared P} {t i a g} : σ.doing t = .waiting i a → P.tries a = some g →
      (σ.poisoned g = true ∨ ∃ u j c, u ≠ t ∧ (σ.doing u).call = some (j, c) ∧ g ∈ P.holds c) →
      TStep σ (σ.now t (.leaving i a (P.busy a)))
  /-- `lock().unwrap()` on a poisoned mutex; the panic poisons the mutexes the thread has locked before -/
  | poisoned {σ : Shared P} {t i a g} (l₁ l₂ : List G) : σ.doing t = .waiting i a → P.locks a = l₁ ++ g :: l₂ →
      (∀ g' ∈ l₁, σ.owner g' = none ∧ σ.poisoned g' = false) → σ.poisoned g = true →
      TStep σ (({ σ with poisoned := fun g' => if g' ∈ l₁ then true else σ.poisoned g' } : Shared P).now t (.crashed i a))
  | access {σ : Shared P} {t i a f k} : σ.doing t = .inside i a (.access f k) →
      TStep σ (({ σ with
        data := put σ.data (P.guard a) (f (σ.data (P.guard a))).1
        outs := put σ.outs (P.guard a) (σ.outs (P.guard a) ++ (f (σ.data (P.guard a))).2) } : Shared P).now t
          (.inside i a (k (σ.data (P.guard a)))))
  | release {σ : Shared P} {t i a r} : σ.doing t = .inside i a (.ret r) →
      TStep σ (({ σ with owner := fun g => if g ∈ P.holds a then none else σ.owner g } : Shared P).now t (.leaving i a r))
  /-- a panic drops the guards, which poisons the mutexes -/
  | panic {σ : Shared P} {t i a} : σ.doing t = .inside i a .panic →
      TStep σ (({ σ with
        owner := fun g => if g ∈ P.holds a then none else σ.owner g
        poisoned := fun g => if g ∈ P.holds a then true else σ.poisoned g } : Shared P).now t (.crashed i a))
  | return {σ : Shared P} {t i a r} : σ.doing t = .leaving i a r →
      TStep σ (({ σ with trace := σ.trace ++ [.returns i r] } : Shared P).now t .idle)

/-- Nothing has been called yet. -/
def Shared.init (P : Program A G O R X) (x : (g : G) → X g) : Shared P :=
  ⟨x, fun _ => none, fun _ => false, fun _ => [], fun _ => .idle, 0, []⟩

/-- Any interleaving of steps. -/
inductive TReaches (σ : Shared P) : Shared P → Prop
  | refl : TReaches σ σ
  | step {τ υ} : TReaches σ τ → TStep τ υ → TReaches σ υ

/-! ## The calls of a host -/

/-- The mutexes of a host that guard data: `Mutex<Node>` (src/node.rs:43) and `Mutex<ControllerNode>`
(src/controller.rs:71). -/
inductive Guard where
  | node
  | ctrl
deriving DecidableEq, Repr

/-- The data behind the mutexes: the node, and the remote nodes of the controller (src/controller_node.rs:33). -/
def Guarded (S : Type) : Guard → Type
  | .node => Node S
  | .ctrl => List RemoteNode

/-- Results of calls. `sent` and `posted` include the caller's message, which the call updates; `posted` has the number
of the channel. -/
inductive Result where
  | unit
  | bool (r : Bool)
  | bytes (r : Option (List UInt8))
  | sent (r : Bool) (msg : Message)
  | posted (k : Nat) (msg : Message)
  | nodes (l : List RemoteNode)

/-- The calls threads make: methods of `Device` and `Controller`, several operations of the application on a node while
it holds its mutex (`Device::node`, src/device.rs:206-209), and calls of the two observers by receiver threads. As
everywhere, each carries what its environment contributes. -/
inductive ApiCall (S : Type) where
  | setProperty (d : Device) (c : UInt8) (data : List UInt8)
  | property (d : Device) (c : UInt8)
  | setRequestHandler (d : Device) (h : Handler S)
  | startDevice (d : Device) (menv uenv : List IfOutcome) (ok : Nat → Bool)
  | stopDevice (d : Device)
  | search (code : UInt32) (ok : Nat → Bool)
  | send (r : RemoteNode) (msg : Message) (ok : Nat → Bool)
  | post (r : RemoteNode) (msg : Message) (ok : Nat → Bool)
  | startController (menv uenv : List IfOutcome) (ok : Nat → Bool)
  | stopController
  | addObserver (o : ObserverRef)
  | nodes (ω : HashOrder)
  | locked (ops : List (Op S))
  | received (ω : HashOrder) (ok : Nat → Bool) (msg : Message)
  | discovered (ω : HashOrder) (uuid : Nat → List UInt8) (msg : Message)

/-- The mutex whose data a call touches. -/
def ApiCall.guard {S : Type} : ApiCall S → Guard
  | .nodes _ => .ctrl
  | .discovered .. => .ctrl
  | _ => .node

/-- The mutexes a call holds: the controller's methods that use the node hold that of the controller's data as well
(src/controller.rs:89-141). -/
def ApiCall.holds {S : Type} : ApiCall S → List Guard
  | .nodes _ => [.ctrl]
  | .discovered .. => [.ctrl]
  | .search .. => [.ctrl, .node]
  | .send .. => [.ctrl, .node]
  | .post .. => [.ctrl, .node]
  | .startController .. => [.ctrl, .node]
  | .stopController => [.ctrl, .node]
  | .addObserver _ => [.ctrl, .node]
  | _ => [.node]

/-- The mutexes a call locks with `lock().unwrap()`: all but those of the observers (src/node.rs:451,
src/controller_node.rs:131). -/
def ApiCall.locks {S : Type} (a : ApiCall S) : List Guard :=
  match a with
  | .received .. => []
  | .discovered .. => []
  | _ => a.holds

/-- Calls that use `try_lock`, and on what: the observers (src/node.rs:451-453, src/controller_node.rs:131-133) and
`Controller::send_message` (src/controller.rs:116-118). -/
def ApiCall.tries {S : Type} : ApiCall S → Option Guard
  | .send .. => some .ctrl
  | .received .. => some .node
  | .discovered .. => some .ctrl
  | _ => none

/-- The result of a call that found the mutex taken (the same lines). -/
def ApiCall.busy {S : Type} : ApiCall S → Result
  | .send _ msg _ => .sent false msg
  | _ => .unit

/-- What a call does to the data behind its mutex, as functions of `Model/Node` and `Model/Host`: `Device`'s methods
(src/device.rs:220-249), `Controller`'s (src/controller.rs:88-142) and the observers (src/node.rs:449-471,
src/controller_node.rs:129-148). The controller's calls are those of `Model/Host` on a host without remote nodes, which
they do not use. -/
def ApiCall.effect {S : Type} (b : Build) (db : Database) : (a : ApiCall S) → Guarded S a.guard →
    Res (Result × Guarded S a.guard × List Out)
  | .setProperty d c data, (n : Node S) => let r := d.setProperty n c data; .ok (.bool r.1, r.2, [])
  | .property d c, (n : Node S) => .ok (.bytes (d.property n c), n, [])
  | .setRequestHandler d h, (n : Node S) => .ok (.unit, d.setRequestHandler n h, [])
  | .startDevice d menv uenv ok, (n : Node S) => do
    let r ← d.start menv uenv ok n
    pure (.bool r.1, r.2.1, r.2.2)
  | .stopDevice d, (n : Node S) => do
    let r ← d.stop n
    pure (.bool r.1, r.2, [])
  | .search code ok, (n : Node S) =>
    let r := Host.searchObject ok (Host.ofNode n) code
    .ok (.bool r.1, r.2.1.node, r.2.2)
  | .send rn msg ok, (n : Node S) =>
    let r := Host.sendMessage ok true (Host.ofNode n) rn msg
    .ok (.sent r.1 r.2.1, r.2.2.1.node, r.2.2.2)
  | .post rn msg ok, (n : Node S) =>
    let r := Host.postMessage ok (Host.ofNode n) rn msg
    .ok (.posted r.1 r.2.1, r.2.2.1.node, r.2.2.2)
  | .startController menv uenv ok, (n : Node S) => do
    let r ← Host.start menv uenv ok (Host.ofNode n)
    pure (.bool r.1, r.2.1.node, r.2.2)
  | .stopController, (n : Node S) => do
    let r ← Host.stop (Host.ofNode n)
    pure (.bool r.1, r.2.node, [])
  | .addObserver o, (n : Node S) => .ok (.bool true, ((Host.ofNode n).addObserver o).node, [])
  | .locked ops, (n : Node S) => do
    let r ← n.run b ops
    pure (.unit, r.1, r.2)
  | .received ω ok msg, (n : Node S) => do
    let r ← n.observeTry b ω ok true msg
    pure (.unit, r.1, r.2)
  | .nodes ω, (l : List RemoteNode) => do
    let r ← Host.nodesLoop b ω l
    pure (.nodes r, l, [])
  | .discovered ω uuid msg, (l : List RemoteNode) => do
    let r ← observeController b db ω uuid true l msg
    pure (.unit, r, [])

end Uecho
