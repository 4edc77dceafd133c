import Verif.Model.Host
/-!
# Specification vocabulary for observers
-/
namespace Uecho.Spec
variable {S : Type}

/-- All servers of a node. -/
def servers (n : Node S) : List Server := n.transport.ucast ++ n.transport.mcast

/-- Who has registered and who is called for a received message. -/
structure Ledger where
  registered : List ObserverRef
  called : List ObserverRef
deriving DecidableEq, Repr

/-- The effect of one call of the API on a ledger: registering only adds to the registered observers; a
start that ends with the node running adds all registered observers to those called (who are still called
from before if the node was running already); stopping ends all calls. -/
def Ledger.step (l : Ledger) (op : Op S) (wasRunning isRunning : Bool) : Ledger :=
  match op with
  | .addObserver o => { l with registered := l.registered ++ [o] }
  | .start _ _ _ =>
    { l with called := if isRunning then (if wasRunning then l.called else []) ++ l.registered else [] }
  | .stop => { l with called := [] }
  | _ => l

/-- The ledger after a history; `is_running` is asked before and after each call. -/
def Ledger.run (b : Build) : Ledger → Node S → List (Op S) → Ledger
  | l, _, [] => l
  | l, n, op :: ops =>
    match n.step b op with
    | .panic => l
    | .ok r => Ledger.run b (l.step op n.isRunning r.1.isRunning) r.1 ops

/-- Along the history no observer is registered and `start` is not called while the node is running. -/
def Orderly (b : Build) : Node S → List (Op S) → Prop
  | _, [] => True
  | n, op :: ops =>
    (match op with
     | .addObserver _ => n.isRunning = false
     | .start _ _ _ => n.isRunning = false
     | _ => True) ∧
    match n.step b op with
    | .panic => True
    | .ok r => Orderly b r.1 ops

/-- The observers registered by a history, in order. -/
def registrations (ops : List (Op S)) : List ObserverRef :=
  ops.filterMap (fun op => match op with
    | .addObserver o => some o
    | _ => none)

/-- The application's observers in a list. -/
def users (l : List ObserverRef) : List Nat :=
  l.filterMap (fun o => match o with
    | .user k => some k
    | _ => none)

end Uecho.Spec
