import Verif.Model.Logging
/-!
# Specification vocabulary: the logger (C92)

`Runs tr w`: `tr` is what can be observed of an execution of the process: which thread makes which call when, and how the
calls end.
-/
namespace Uecho.Spec
open Logging

/-- Some call of `Logger::init` has returned (without a panic). -/
def InitDone (tr : List Event) : Prop := ∃ t, Event.ended t .init .returned ∈ tr

/-- Some call of `Logger::init` has panicked. -/
def InitPanicked (tr : List Event) : Prop := ∃ t, Event.ended t .init .panicked ∈ tr

/-- The application has installed a logger of its own with `log::set_logger`. -/
def OtherInstalled (tr : List Event) : Prop := ∃ t, Event.ended t .install (.installed true) ∈ tr

/-- The application never tries to. -/
def NoOther (tr : List Event) : Prop := ∀ t, Event.called t .install ∉ tr

/-- Thread `t` is in a call: it has made one that has not ended. -/
def Busy (t : Nat) (tr : List Event) : Prop :=
  ∃ pre c mid, tr = pre ++ .called t c :: mid ∧ ∀ e ∈ mid, e.thread ≠ t

end Uecho.Spec
