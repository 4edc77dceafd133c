import Verif.Model.Servers
/-!
# Specification vocabulary for the running transport (C77, C78)

Everything is said about what happens (`Live.Ev`), in the order in which it happens.
-/
namespace Uecho.Spec
open Live

/-- The transport has been stopped: `stop` returned, or a failed `start` did. -/
def Stops : Ev → Prop
  | .returned .stop _ => True
  | .returned (.start _ _) r => r = false
  | _ => False

/-- `start` is called. -/
def Starts : Ev → Prop
  | .invoked (.start _ _) => True
  | _ => False

/-- A receiver thread does something observable. -/
def Traffic : Ev → Prop
  | .received _ _ => True
  | .notify _ _ _ => True
  | .called _ _ _ => True
  | _ => False

/-- What `recv_from` returned on server `s`, in order. -/
def receivedOn (s : Nat) (tr : List Ev) : List SocketEvent :=
  tr.filterMap (fun e => match e with | .received s' x => if s' = s then some x else none | _ => none)

/-- The messages that server `s` notified, with the observers registered at that moment, in order. -/
def notifiedOn (s : Nat) (tr : List Ev) : List (Message × List ObserverRef) :=
  tr.filterMap (fun e => match e with | .notify s' m obs => if s' = s then some (m, obs) else none | _ => none)

/-- The calls of observers by the thread of server `s`, in order. -/
def callsOn (s : Nat) (tr : List Ev) : List (ObserverRef × Message) :=
  tr.filterMap (fun e => match e with | .called s' o m => if s' = s then some (o, m) else none | _ => none)

/-- How many observers server `s` has. -/
def obsCount (σ : St) (s : Nat) : Nat := ((σ.srvs[s]?).map (fun v => v.observers.length)).getD 0

/-- The caller waits for the thread of server `s`. -/
def WaitsFor (σ : St) (s : Nat) : Prop := ∃ op as, σ.caller = some ⟨op, .join s :: as⟩

/-- A step towards the end of the call: of the caller, or of the thread it waits for. -/
def Helpful (σ : St) (w : Who) : Prop := w = .caller ∨ ∃ s, w = .thread s ∧ WaitsFor σ s

/-- An execution during a call, in which no call ends, with the number of helpful steps. -/
inductive During : St → Nat → St → Prop where
  | refl (σ : St) : During σ 0 σ
  | helpful {σ σ' σ'' : St} {w : Who} {evs : List Ev} {k : Nat} (hs : Step σ w evs σ') (hw : Helpful σ w)
      (hn : σ'.caller ≠ none) (h : During σ' k σ'') : During σ (k + 1) σ''
  | other {σ σ' σ'' : St} {w : Who} {evs : List Ev} {k : Nat} (hs : Step σ w evs σ') (hw : ¬ Helpful σ w)
      (hn : σ'.caller ≠ none) (h : During σ' k σ'') : During σ k σ''

end Uecho.Spec
