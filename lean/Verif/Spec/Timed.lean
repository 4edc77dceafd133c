import Verif.Model.Timed
import Verif.Spec.Servers
/-!
# Specification vocabulary for the duration of calls (C96)
-/
namespace Uecho.Spec
open Live

/-- Time goes on, and nobody but the receiver threads and the caller does anything; the call does not end. -/
inductive Under (L : Limits) : Timed → Timed → Prop where
  | refl (τ : Timed) : Under L τ τ
  | step {τ τ' τ'' : Timed} {w : Who} {evs : List Ev} (h : Under L τ τ') (hs : TimedStep L τ' w evs τ'')
      (hn : τ''.st.caller ≠ none) : Under L τ τ''

/-- The longest time it may take to stop server `s`: one read timeout, one call of each of its observers, five other
steps. -/
def stopTime (L : Limits) (σ : St) (s : Nat) : Nat := L.recv + obsCount σ s * L.call + 5 * L.step

/-- The longest time a call may take that is made in state `σ`. A `start` that fails stops all servers it has started. -/
def callTime (L : Limits) (σ : St) : MOp → Nat
  | .stop => ((σ.ucast ++ σ.mcast).map (stopTime L σ)).sum + 3 * L.step
  | .start menv uenv => (menv.length + uenv.length) * (L.bind + L.recv + 5 * L.step) +
      ((σ.ucast ++ σ.mcast).map (stopTime L σ)).sum + 6 * L.step
  | .addObserver _ => 0

end Uecho.Spec
