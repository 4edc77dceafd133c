import Verif.Spec.Request
/-!
# Specification vocabulary for remote calls (C64)
-/
namespace Uecho.Spec
variable {S : Type}

/-- The services that ask for a response to the caller: write with response, read, write and read. -/
def isCallByte (e : UInt8) : Bool := e == 0x61 || e == 0x62 || e == 0x6E

/-- While the node waits for the response with TID `tid` it may do and receive anything (`mid`), except
post another request, number another message automatically, or receive another response with that TID. -/
structure Waits (b : Build) (n n₁ : Node S) (tid : UInt16) (mid : List (Op S)) (o₁ : List Out) : Prop where
  run : n.run b mid = .ok (n₁, o₁)
  noPost : ∀ op ∈ mid, ∀ to m ok, op ≠ .post to m ok
  noAuto : ∀ g u, (g, u) ∈ handed o₁ → g.tid ≠ 0
  noOther : ∀ msg ω ok, Op.receive msg true ω ok ∈ mid → isRequestByte msg.esvByte = true ∨ msg.tid ≠ tid

end Uecho.Spec
