import Verif.Model.Threads
/-!
# Specification vocabulary: calls that take effect one at a time
-/
namespace Uecho.Spec
variable {A G O R : Type} {X : G → Type} [DecidableEq G]

/-- A call that has taken effect: its number, the call, its result, and whether it was refused because the mutex was
taken. -/
structure Done (A R : Type) where
  id : Nat
  call : A
  result : R
  refused : Bool

/-- Starting with `x`, the calls `l` made one after the other, each alone, have the results noted in `l`, leave `y` and
transmit `o`. A refused call does nothing. -/
inductive OneByOne (P : Program A G O R X) (x : (g : G) → X g) :
    List (Done A R) → ((g : G) → X g) → (G → List O) → Prop
  | nil : OneByOne P x [] x (fun _ => [])
  | done {l y o i a r y' out} : OneByOne P x l y o → (P.code a).run (y (P.guard a)) = .ok (r, y', out) →
      OneByOne P x (l ++ [⟨i, a, r, false⟩]) (put y (P.guard a) y') (put o (P.guard a) (o (P.guard a) ++ out))
  | refused {l y o i a} : OneByOne P x l y o → P.tries a ≠ none →
      OneByOne P x (l ++ [⟨i, a, P.busy a, true⟩]) y o

/-- The calls `l` explain what the application has seen (`trace`): nothing else has taken effect, a call that has
returned is among them with that result, no call is there twice, and if a call returned before another one was made,
it comes before it (real-time order). -/
structure ExplainsCalls (l : List (Done A R)) (trace : List (Event A R)) : Prop where
  made : ∀ d ∈ l, Event.invoke d.id d.call ∈ trace
  returned : ∀ i r, Event.returns i r ∈ trace → ∃ d ∈ l, d.id = i ∧ d.result = r
  once : (l.map (·.id)).Nodup
  order : ∀ i r j a, [Event.returns i r, Event.invoke j a].Sublist trace → j ∈ l.map (·.id) →
    [i, j].Sublist (l.map (·.id))

/-- The first call had returned when the second was made. -/
def CameBefore (trace : List (Event A R)) (i j : Nat) : Prop :=
  ∃ r a, [Event.returns i r, Event.invoke j a].Sublist trace

/-- Another call, one of `calls`, was made, and neither of the two had returned when the other one was made. -/
def Overlapped (trace : List (Event A R)) (i : Nat) (calls : A → Prop) : Prop :=
  ∃ j a, j ≠ i ∧ Event.invoke j a ∈ trace ∧ calls a ∧ ¬ CameBefore trace i j ∧ ¬ CameBefore trace j i

/-- A step in which thread `t` moves, and only `t`. -/
def Moves {P : Program A G O R X} (t : Nat) (σ τ : Shared P) : Prop :=
  TStep σ τ ∧ τ.doing t ≠ σ.doing t ∧ ∀ u, u ≠ t → τ.doing u = σ.doing u

variable {S : Type}

/-- The steps of `Model/Host` that a call consists of. Calls that only read are none. -/
def hostOps (a : ApiCall S) (refused : Bool) : List (HostOp S) :=
  match a with
  | .setProperty d c data => [.node (.setProperty d.code c data)]
  | .property .. => []
  | .setRequestHandler _ h => [.node (.addHandler h)]
  | .startDevice _ menv uenv ok => [.node (.start menv uenv ok)]
  | .stopDevice _ => [.node .stop]
  | .search code ok => [.search code ok]
  | .send r msg ok => [.send r msg (!refused) ok]
  | .post r msg ok => [.post r msg ok]
  | .startController menv uenv ok => [.start menv uenv ok]
  | .stopController => [.stop]
  | .addObserver o => [.node (.addObserver o)]
  | .nodes _ => []
  | .locked ops => ops.map .node
  | .received ω ok msg => [.call .node ⟨!refused, true, ω, fun _ => List.replicate 16 0, ok⟩ msg]
  | .discovered ω uuid msg => [.call .controller ⟨true, !refused, ω, uuid, fun _ => true⟩ msg]

/-- What a call returns when it is made on host `h` and not refused. -/
def answer (b : Build) (h : Host S) : ApiCall S → Res Result
  | .setProperty d c data => .ok (.bool (d.setProperty h.node c data).1)
  | .property d c => .ok (.bytes (d.property h.node c))
  | .startDevice d menv uenv ok => do
    let r ← d.start menv uenv ok h.node
    pure (.bool r.1)
  | .stopDevice d => do
    let r ← d.stop h.node
    pure (.bool r.1)
  | .search code ok => .ok (.bool (h.searchObject ok code).1)
  | .send r msg ok => let x := h.sendMessage ok true r msg; .ok (.sent x.1 x.2.1)
  | .post r msg ok => let x := h.postMessage ok r msg; .ok (.posted x.1 x.2.1)
  | .startController menv uenv ok => do
    let r ← h.start menv uenv ok
    pure (.bool r.1)
  | .stopController => do
    let r ← h.stop
    pure (.bool r.1)
  | .addObserver _ => .ok (.bool true)
  | .nodes ω => do
    let l ← h.nodes b ω
    pure (.nodes l)
  | .setRequestHandler .. | .locked _ | .received .. | .discovered .. => .ok .unit

/-- What a refused call returns: `send_message` returns false, and leaves the message as it is. -/
def refusal : ApiCall S → Result
  | .send _ msg _ => .sent false msg
  | _ => .unit

/-- The methods of `Controller`, and the observer by which it learns of other nodes. -/
def usesController : ApiCall S → Bool
  | .search .. | .send .. | .post .. | .startController .. | .stopController | .addObserver _ | .nodes _
  | .discovered .. => true
  | .setProperty .. | .property .. | .setRequestHandler .. | .startDevice .. | .stopDevice _ | .locked _
  | .received .. => false

/-- The calls that use the node: all but the two that use only the remote nodes. -/
def usesNode : ApiCall S → Bool
  | .nodes _ | .discovered .. => false
  | _ => true

/-- The calls that use what is behind a mutex. -/
def uses : Guard → ApiCall S → Bool
  | .node => usesNode
  | .ctrl => usesController

/-- The calls that may be refused: deliveries of messages, and `Controller::send_message`. -/
def refusable : ApiCall S → Bool
  | .send .. | .received .. | .discovered .. => true
  | _ => false

/-- The calls on account of which a call is refused: a delivery to the node by one that uses the node, a delivery to the
controller, and `send_message`, by one that uses the controller. -/
def refusedFor (a c : ApiCall S) : Prop :=
  match a with
  | .received .. => usesNode c = true
  | .discovered .. | .send .. => usesController c = true
  | _ => False

/-- Delivery of a message to the node or to the controller. -/
def delivery : ApiCall S → Bool
  | .received .. | .discovered .. => true
  | _ => false

/-- The calls `l` made one after the other on host `h`, each alone, have the results noted in `l`. -/
def CallsReturn (b : Build) (db : Database) (h : Host S) (l : List (Done (ApiCall S) Result)) : Prop :=
  ∀ pre d post, l = pre ++ d :: post → ∃ h' outs,
    h.run b db (pre.flatMap fun e => hostOps e.call e.refused) = .ok (h', outs) ∧
    (if d.refused then .ok (refusal d.call) else answer b h' d.call) = .ok d.result

end Uecho.Spec
