import Verif.Lemmas.Wire
import Verif.Props.Codec
/-!
# C87: a protocol property decodes, compares and starts out as documented
-/
namespace Uecho
open Spec

/-- C87: `Property::parse` accepts a byte string exactly if it begins with a property code, a length and that many bytes of
data, and the property then has this code and this data, whatever it was before. -/
theorem C87_parse (p q : WProperty) (bytes : List UInt8) :
    WProperty.parse p bytes = .ok (true, q) ↔
      ∃ rest, bytes = q.code :: UInt8.ofNat q.data.length :: (q.data ++ rest) ∧ q.data.length ≤ 255 := by
  constructor
  · intro h
    obtain ⟨h1, rest, h2⟩ := WProperty.parse_true h
    exact ⟨rest, by rw [h2]; simp [encProp], h1⟩
  · rintro ⟨rest, rfl, h⟩
    rw [WProperty.parse_eq]
    simp only []
    rw [toNat_ofNat_le h, if_neg (by simp)]
    simp

/-- C87: it never panics, and what it refuses leaves the property as it was or without data: never with data of an
incomplete property. -/
theorem C87_refuse (p : WProperty) (bytes : List UInt8) :
    WProperty.parse p bytes ≠ .panic ∧
    ∀ q, WProperty.parse p bytes = .ok (false, q) →
      (bytes.length < 2 ∧ q = p) ∨ (∃ c, bytes.head? = some c ∧ q = ⟨c, []⟩) := by
  refine ⟨WProperty.parse_ne_panic p bytes, ?_⟩
  intro q h
  rw [WProperty.parse_eq] at h
  match bytes with
  | [] => left; simp only [Res.ok.injEq, Prod.mk.injEq, true_and] at h; exact ⟨by simp, h.symm⟩
  | [a] => left; simp only [Res.ok.injEq, Prod.mk.injEq, true_and] at h; exact ⟨by simp, h.symm⟩
  | c :: z :: rest =>
    right
    simp only [Res.ok.injEq] at h
    split at h
    · simp only [Prod.mk.injEq, true_and] at h
      exact ⟨c, rfl, h.symm⟩
    · simp at h

/-- C87: `Property::equals` decides equality of code and data. -/
theorem C87_equals (p q : WProperty) : p.equals q = true ↔ p.code = q.code ∧ p.data = q.data := by
  rw [WProperty.equals_iff]
  cases p; cases q; simp

/-- C87: a new property has code 0 and no data, and so it stays as far as nothing is set. -/
theorem C87_new (c : UInt8) (d : List UInt8) :
    WProperty.new.code = 0 ∧ WProperty.new.data = [] ∧ WProperty.new.size = 0 ∧
    WProperty.new.setCode c = WProperty.ofParts c [] ∧ WProperty.new.setData d = WProperty.ofParts 0 d ∧
    (WProperty.new.setCode c).setData d = WProperty.ofParts c d ∧
    ∀ p : WProperty, (p.setCode c).code = c ∧ (p.setCode c).data = p.data ∧ (p.setData d).data = d ∧
      (p.setData d).code = p.code ∧ p.size = p.data.length :=
  ⟨rfl, rfl, rfl, rfl, rfl, rfl, fun _ => ⟨rfl, rfl, rfl, rfl, rfl⟩⟩

/-- Non-vacuity: a property with two bytes of data, followed by something else; and one that is cut off. -/
example : WProperty.parse ⟨1, [9, 9]⟩ [0x80, 2, 0x30, 0x31, 7] = .ok (true, ⟨0x80, [0x30, 0x31]⟩) ∧
    WProperty.parse ⟨1, [9, 9]⟩ [0x80, 2, 0x30] = .ok (false, ⟨0x80, []⟩) ∧
    WProperty.parse ⟨1, [9, 9]⟩ [0x80] = .ok (false, ⟨1, [9, 9]⟩) := by decide +kernel

end Uecho
