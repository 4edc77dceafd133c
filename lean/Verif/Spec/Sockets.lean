import Verif.Model.Sockets
import Verif.Spec.Builder
/-!
# Specification vocabulary: the log of the transport (C93)
-/
namespace Uecho.Spec
open Sock

/-- The result of a history without what was logged. -/
def unlogged {α β : Type} : Res (α × β × List Line) → Res (α × β)
  | .ok r => .ok (r.1, r.2.1)
  | .panic => .panic

/-- Reads the transmissions off a log: source, destination and printed message of each SEND or MCST line that is not
followed by the complaint that it failed. -/
def sentOf : List Line → List (SocketAddr × SocketAddr × List Char)
  | [] => []
  | .send f t x :: ls =>
    match ls with
    | .sendFailed _ :: _ => sentOf ls
    | _ => (f, t, x) :: sentOf ls
  | .mcst f t x :: ls =>
    match ls with
    | .mcstFailed _ :: _ => sentOf ls
    | _ => (f, t, x) :: sentOf ls
  | _ :: ls => sentOf ls

/-- Reads the accepted messages off a log: source and printed message of each RECV line. -/
def receivedOf (ls : List Line) : List (SocketAddr × List Char) :=
  ls.filterMap fun
    | .recv s _ x => some (s, x)
    | _ => none

/-- Reads the rejected datagrams off a log: source and bytes of each "Couldn't parse" line. -/
def rejectedOf (ls : List Line) : List (SocketAddr × List UInt8) :=
  ls.filterMap fun
    | .unparsed s _ x => some (s, x)
    | _ => none

/-- The number of the level at which a line is logged (crate `log`: error 1, warn 2, info 3, debug 4, trace 5): failures
to set up a server are errors, other failures warnings, what goes over the wire is information, what is set up is for
debugging. -/
def lineLevel : Line → Nat
  | .bindFailed _ => 1
  | .sendFailed _ => 2
  | .mcstFailed _ => 2
  | .unparsed _ _ _ => 2
  | .recvFailed _ => 2
  | .send _ _ _ => 3
  | .mcst _ _ _ => 3
  | .recv _ _ _ => 3
  | .bindUdp _ => 4
  | .bindMct _ => 4
  | .joined _ => 4

/-- What is left of a log if only lines up to level `lv` are logged. -/
def upTo (lv : Nat) (l : List Line) : List Line := l.filter (fun x => lineLevel x ≤ lv)

end Uecho.Spec
