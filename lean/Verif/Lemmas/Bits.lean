import Verif.Spec.Wire
/-! Bit-level lemmas: header fields as big-endian numbers. -/
namespace Uecho
open Spec

theorem tid_toNat (m : Message) :
    m.tid.toNat = m.tidBytes.1.toNat * 256 + m.tidBytes.2.toNat := by
  have h1 := m.tidBytes.1.toNat_lt
  have h2 := m.tidBytes.2.toNat_lt
  simp only [Message.tid, UInt16.toNat_add, UInt16.toNat_shiftLeft, UInt8.toNat_toUInt16,
    Nat.shiftLeft_eq, UInt16.reduceToNat, Nat.reduceMod, Nat.reducePow]
  omega

theorem objectCode_toNat (e : UInt8 × UInt8 × UInt8) :
    (Message.toObjectCode e).toNat = e.1.toNat * 65536 + e.2.1.toNat * 256 + e.2.2.toNat := by
  have h1 := e.1.toNat_lt
  have h2 := e.2.1.toNat_lt
  have h3 := e.2.2.toNat_lt
  simp only [Message.toObjectCode, UInt32.toNat_add, UInt32.toNat_shiftLeft, UInt8.toNat_toUInt32,
    Nat.shiftLeft_eq, UInt32.reduceToNat, Nat.reduceMod, Nat.reducePow]
  omega

theorem and_mask_shift (x k : Nat) : (x &&& (0xFF <<< k)) >>> k = (x >>> k) % 256 := by
  rw [Nat.shiftRight_and_distrib, Nat.shiftLeft_shiftRight]
  exact Nat.and_two_pow_sub_one_eq_mod _ 8

theorem eojBytes_1 (c : UInt32) : (Message.eojBytes c).1.toNat = c.toNat / 65536 % 256 := by
  simp only [Message.eojBytes, UInt32.toNat_toUInt8, UInt32.toNat_shiftRight, UInt32.toNat_and,
    UInt32.reduceToNat]
  have := and_mask_shift c.toNat 16
  simp only [Nat.shiftRight_eq_div_pow] at this ⊢
  simp at this ⊢
  omega

theorem eojBytes_2 (c : UInt32) : (Message.eojBytes c).2.1.toNat = c.toNat / 256 % 256 := by
  simp only [Message.eojBytes, UInt32.toNat_toUInt8, UInt32.toNat_shiftRight, UInt32.toNat_and,
    UInt32.reduceToNat]
  have := and_mask_shift c.toNat 8
  simp only [Nat.shiftRight_eq_div_pow] at this ⊢
  simp at this ⊢
  omega

theorem eojBytes_3 (c : UInt32) : (Message.eojBytes c).2.2.toNat = c.toNat % 256 := by
  simp only [Message.eojBytes, UInt32.toNat_toUInt8, UInt32.toNat_and, UInt32.reduceToNat]
  have := Nat.and_two_pow_sub_one_eq_mod c.toNat 8
  simp at this ⊢
  omega

end Uecho
