import Verif.Spec.Wire
/-!
# Specification vocabulary for reading damaged frames (C80)
-/
namespace Uecho.Spec

/-- `qs` are the properties that can be read from the front of `body` when `opc` are announced, and `rest` is what is
left: either all are there, or no further complete property is. -/
structure Readable (opc : Nat) (body : List UInt8) (qs : List WProperty) (rest : List UInt8) : Prop where
  split : body = qs.flatMap encProp ++ rest
  sizes : ∀ q ∈ qs, q.data.length ≤ 255
  count : qs.length ≤ opc
  longest : qs.length < opc → ∀ (q : WProperty) (r : List UInt8), q.data.length ≤ 255 → rest ≠ encProp q ++ r

/-- The first eleven bytes of a frame. -/
def headerBytes (tid seoj deoj : Nat) (esv : UInt8) : List UInt8 :=
  [0x10, 0x81] ++ be 2 tid ++ be 3 seoj ++ be 3 deoj ++ [esv]

end Uecho.Spec
