import Verif.Spec.Controller
import Verif.Spec.Observers
import Verif.Spec.Crash
import Verif.Model.Shared
/-!
# Specification vocabulary for several controllers and devices on one node
-/
namespace Uecho.Spec
variable {S : Type}

/-- The profile messages handed to the controller with number `k` in a history while its mutex was free, in order. -/
def profileMessagesTo (k : Nat) (ops : List (SharedOp S)) : List Message :=
  ops.filterMap (fun op => match op with
    | .call (.user i) e m => if i = k ∧ e.ctrlFree = true ∧ IsProfileMessage m then some m else none
    | _ => none)

/-- The messages handed to the application's observer with number `k`, in order. -/
def messagesTo (k : Nat) (ops : List (SharedOp S)) : List Message :=
  ops.filterMap (fun op => match op with
    | .call (.user i) _ m => if i = k then some m else none
    | _ => none)

/-- The UUIDs a history draws are 16 bytes long. -/
def SharedUuids : SharedOp S → Prop
  | .call _ e _ => ∀ i, (e.uuid i).length = 16
  | .newDevice uuid₁ uuid₂ _ _ => uuid₁.length = 16 ∧ uuid₂.length = 16
  | _ => True

/-- What a step means to the node alone; `i` observer objects exist already. -/
def nodeOp (b : Build) (db : Database) (i : Nat) : SharedOp S → List (Op S)
  | .newController => [.addObserver .node, .addObserver (.user i)]
  | .newDevice uuid₁ uuid₂ ω code =>
    match deviceObject b db uuid₁ uuid₂ ω code with
    | .ok o => [.addObserver .node, .addObserver (.user i), .addObject o]
    | .panic => []
  | .newObserver => [.addObserver (.user i)]
  | .call .node e m => [.receive m e.nodeFree e.ω e.ok]
  | .call _ _ _ => []
  | .node op => [op]
  | .search _ code ok => [.notify ((searchMessage.setSeoj 0x0EF001).setDeoj code) ok]
  | .send _ r m free ok => if free = true then [.send ⟨r.addr.ip, 3610⟩ (m.setSeoj 0x0EF001) ok] else []
  | .post _ r m ok => [.post ⟨r.addr.ip, 3610⟩ (m.setSeoj 0x0EF001) ok]
  | .start _ menv uenv ok => [.start menv uenv ok]
  | .stop _ => [.stop]
  | .drop _ => [.stop]

/-- The step makes a controller, a device or an observer. -/
def isMaking : SharedOp S → Bool
  | .newController | .newDevice _ _ _ _ | .newObserver => true
  | _ => false

/-- The step makes a controller or a device, each of which registers the node (again). -/
def isOwner : SharedOp S → Bool
  | .newController | .newDevice _ _ _ _ => true
  | _ => false

/-- What a history means to the node alone. -/
def nodeOps (b : Build) (db : Database) : Nat → List (SharedOp S) → List (Op S)
  | _, [] => []
  | i, op :: ops => nodeOp b db i op ++ nodeOps b db (if isMaking op then i + 1 else i) ops

/-- The step posts a request, through some controller or directly. -/
def isPost : SharedOp S → Bool
  | .post _ _ _ _ | .node (.post _ _ _) => true
  | _ => false

/-- The message the step hands to the node, if the node was free. -/
def handsToNode : SharedOp S → Option Message
  | .call .node e m => if e.nodeFree = true then some m else none
  | .node (.receive m free _ _) => if free = true then some m else none
  | _ => none

/-- The calls a server makes for one message. -/
def notifyCalls (env : Nat → CallEnv) (m : Message) : List ObserverRef → List (SharedOp S)
  | [] => []
  | o :: os => .call o (env 0) m :: notifyCalls (fun i => env (i + 1)) m os

/-- The calls a server makes for a sequence of messages. -/
def serveCalls (obs : List ObserverRef) (env : Nat → Nat → CallEnv) : List Message → List (SharedOp S)
  | [] => []
  | m :: ms => notifyCalls (env 0) m obs ++ serveCalls obs (fun i => env (i + 1)) ms

/-- The same as `SafeHostOp` for several controllers and devices. -/
def SafeSharedOp (b : Build) (op : SharedOp S) : Prop :=
  SharedUuids op ∧ match op with
  | .call _ _ msg => SafeMessage msg
  | .node op => SafeOp b op
  | .start _ menv _ _ => ∀ e ∈ menv, IsV4 e.addr
  | _ => True

end Uecho.Spec
