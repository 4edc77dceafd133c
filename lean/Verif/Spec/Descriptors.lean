import Verif.Model.Descriptors
import Verif.Spec.Servers
/-!
# Specification vocabulary for the sockets of a transport (C95)
-/
namespace Uecho.Spec
open Live

/-- The socket of the server created as number `s` is open. -/
def SocketOpen (φ : Counted) (s : Nat) : Prop := ∃ c, φ.held[s]? = some c ∧ 0 < c

/-- How many sockets are open. -/
def openSockets (φ : Counted) : Nat := (φ.held.filter (fun c => decide (0 < c))).length

/-- How often `stop` has panicked. -/
def stopPanics (tr : List Ev) : Nat :=
  (tr.filter (fun e => match e with | .crashed .stop => true | _ => false)).length

/-- How many receiver threads have panicked. -/
def panickedThreads (σ : St) : Nat := (σ.srvs.filter (fun v => decide (v.pc = .panicked))).length

end Uecho.Spec
