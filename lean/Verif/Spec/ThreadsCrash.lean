import Verif.Spec.Threads
import Verif.Spec.Crash
/-!
# Specification vocabulary: threads that crash
-/
namespace Uecho.Spec
variable {S : Type}

/-- A call that respects the preconditions of the library, whether refused or not (see `SafeHostOp`). -/
def SafeCall (b : Build) (a : ApiCall S) : Prop := ∀ refused, ∀ op ∈ hostOps a refused, SafeHostOp b op

end Uecho.Spec
