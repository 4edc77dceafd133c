import Verif.Lemmas.Codec
import Verif.Model.Bytes
/-!
# C10–C13: service codes, byte/integer conversion, identification numbers
-/
namespace Uecho
open Spec

/-! ## C10 -/

/-- The ECHONET Lite service codes (standard, part II, table of ESV codes), except that 0x00 stands
for no service. -/
def Spec.knownServices : List UInt8 :=
  [0x60, 0x61, 0x62, 0x63, 0x6E, 0x71, 0x72, 0x73, 0x74, 0x7A, 0x7E, 0x50, 0x51, 0x52, 0x53, 0x5E]

/-- C10: `to_u8` followed by `from_u8` is the identity on all services. -/
theorem C10_fromU8_toU8 (e : ESV) : ESV.fromU8 e.toU8 = e := by cases e <;> rfl

/-- C10: a byte is decoded to the service with that code, or to `Unknown` exactly when it is not a
known service code. -/
theorem C10_fromU8 (b : UInt8) :
    (b ∈ knownServices → (ESV.fromU8 b).toU8 = b ∧ ESV.fromU8 b ≠ .Unknown) ∧
    (b ∉ knownServices → ESV.fromU8 b = .Unknown) := by
  revert b; decide +kernel

/-- C10: the request class is 0x60..0x6F plus 0x74; responses (and notifications) are 0x70..0x7F
without 0x74, plus the errors; errors are 0x50..0x5F; `Unknown` belongs to no class. -/
theorem C10_classes (e : ESV) :
    (e.isRequest = true ↔ (0x60 ≤ e.toU8 ∧ e.toU8 ≤ 0x6F) ∨ e.toU8 = 0x74) ∧
    (e.isErrorResponse = true ↔ (0x50 ≤ e.toU8 ∧ e.toU8 ≤ 0x5F)) ∧
    (e.isResponse = true ↔
      ((0x70 ≤ e.toU8 ∧ e.toU8 ≤ 0x7F ∧ e.toU8 ≠ 0x74) ∨ (0x50 ≤ e.toU8 ∧ e.toU8 ≤ 0x5F))) ∧
    (e.isNotificationResponse = true ↔ e.toU8 = 0x73 ∨ e.toU8 = 0x7A) ∧
    (e.isUnicastResponse = true ↔ e.isResponse = true ∧ ¬ (e.toU8 = 0x73 ∨ e.toU8 = 0x7A)) := by
  cases e <;> decide

/-- C10: requests and responses are disjoint and together cover every known service. -/
theorem C10_partition (e : ESV) :
    ¬ (e.isRequest = true ∧ e.isResponse = true) ∧
    (e ≠ .Unknown → e.isRequest = true ∨ e.isResponse = true) ∧
    (e.isErrorResponse = true → e.isUnicastResponse = true) := by
  cases e <;> decide

/-! ## C11, C12 -/

theorem shr_byte (v : UInt32) (k : Nat) (hk : k < 4) :
    ((v >>> UInt32.ofNat (k * 8)) &&& 0xFF).toUInt8 = UInt8.ofNat (v.toNat / 256 ^ k % 256) := by
  apply UInt8.toNat.inj
  have hm : (UInt32.ofNat (k * 8)).toNat % 32 = 8 * k := by
    rw [UInt32.toNat_ofNat']; omega
  simp only [UInt32.toNat_toUInt8, UInt32.toNat_and, UInt32.toNat_shiftRight, UInt32.reduceToNat,
    hm, UInt8.toNat_ofNat', Nat.shiftRight_eq_div_pow]
  have := Nat.and_two_pow_sub_one_eq_mod (v.toNat / 2 ^ (8 * k)) 8
  rw [show (2 : Nat) ^ (8 * k) = 256 ^ k by rw [Nat.pow_mul]] at this ⊢
  simp only [Nat.reducePow, Nat.add_one_sub_one] at this ⊢
  omega

/-- C11: on a buffer of at most four bytes `from_u32` writes the big-endian representation of the
value modulo 256^len (whatever the buffer held before, in every build profile). -/
theorem C11_fromU32 (b : Build) (v : UInt32) (buf : List UInt8) (h : buf.length ≤ 4) :
    bytesFromU32 b v buf = .ok (be buf.length v.toNat) := by
  have h0 := shr_byte v 0 (by omega)
  have h1 := shr_byte v 1 (by omega)
  have h2 := shr_byte v 2 (by omega)
  have h3 := shr_byte v 3 (by omega)
  simp only [Nat.zero_mul, Nat.one_mul, Nat.reduceMul, Nat.pow_zero, Nat.div_one, Nat.reducePow] at h0 h1 h2 h3
  simp at h0 h1 h2 h3
  have e2 : ∀ n : Nat, n / 256 / 256 = n / 65536 := by intro n; omega
  have e3 : ∀ n : Nat, n / 65536 / 256 = n / 16777216 := by intro n; omega
  match buf, h with
  | [], _ => rfl
  | [x], _ => 
    simp [bytesFromU32, fromU32Step, shrU32, List.range_succ, be]
    exact h0
  | [x, y], _ =>
    simp [bytesFromU32, fromU32Step, shrU32, List.range_succ, be]
    exact ⟨h1, h0⟩
  | [x, y, z], _ =>
    simp [bytesFromU32, fromU32Step, shrU32, List.range_succ, be, e2]
    exact ⟨h2, h1, h0⟩
  | [x, y, z, w], _ =>
    simp [bytesFromU32, fromU32Step, shrU32, List.range_succ, be, e2, e3]
    exact ⟨h3, h2, h1, h0⟩

theorem shl_byte (x : UInt8) (k : Nat) (hk : k < 4) :
    (x.toUInt32 <<< UInt32.ofNat (k * 8)).toNat = x.toNat * 256 ^ k := by
  have hx := x.toNat_lt
  have hm : (UInt32.ofNat (k * 8)).toNat % 32 = 8 * k := by
    rw [UInt32.toNat_ofNat']; omega
  rw [UInt32.toNat_shiftLeft, hm, UInt8.toNat_toUInt32, Nat.shiftLeft_eq,
    show (2 : Nat) ^ (8 * k) = 256 ^ k by rw [Nat.pow_mul]]
  match k, hk with
  | 0, _ => omega
  | 1, _ => omega
  | 2, _ => omega
  | 3, _ => omega

/-- One loop iteration of `to_u32`, on numbers. -/
theorem toU32Step_eq (b : Build) (bytes : List UInt8) (v : UInt32) (n : Nat) (hn : n < 4)
    (x : UInt8) (hx : bytes[bytes.length - 1 - n]? = some x)
    (hs : v.toNat + x.toNat * 256 ^ n < 2 ^ 32) :
    ∃ w : UInt32, toU32Step b bytes v n = .ok w ∧ w.toNat = v.toNat + x.toNat * 256 ^ n := by
  have hsh := shl_byte x n hn
  refine ⟨v + (x.toUInt32 <<< UInt32.ofNat (n * 8)), ?_, ?_⟩
  · simp only [toU32Step, index, hx, Res.bind_ok, shlU32, show n * 8 < 32 by omega, if_true, addU32]
    rw [if_pos (by rw [hsh]; exact hs)]
  · rw [UInt32.toNat_add, hsh]; omega

/-- C11: on at most four bytes `to_u32` reads the big-endian value (in every build profile). -/
theorem C11_toU32 (b : Build) (bytes : List UInt8) (h : bytes.length ≤ 4) :
    ∃ v, bytesToU32 b bytes = .ok v ∧ v.toNat = beVal bytes := by
  match bytes, h with
  | [], _ => exact ⟨0, rfl, rfl⟩
  | [x], _ =>
    have hx := x.toNat_lt
    obtain ⟨v, h1, h2⟩ := toU32Step_eq b [x] 0 0 (by omega) x rfl (by simp; omega)
    refine ⟨v, ?_, ?_⟩
    · simp [bytesToU32, List.range_succ, h1]
    · simp [h2, beVal]
  | [x, y], _ =>
    have hx := x.toNat_lt; have hy := y.toNat_lt
    obtain ⟨v, h1, h2⟩ := toU32Step_eq b [x, y] 0 0 (by omega) y rfl (by simp; omega)
    simp only [UInt32.toNat_zero, Nat.pow_zero, Nat.mul_one, Nat.zero_add] at h2
    obtain ⟨w, h3, h4⟩ := toU32Step_eq b [x, y] v 1 (by omega) x rfl (by simp; omega)
    refine ⟨w, ?_, ?_⟩
    · simp [bytesToU32, List.range_succ, h1, h3]
    · simp [h2, h4, beVal]; omega
  | [x, y, z], _ =>
    have hx := x.toNat_lt; have hy := y.toNat_lt; have hz := z.toNat_lt
    obtain ⟨v, h1, h2⟩ := toU32Step_eq b [x, y, z] 0 0 (by omega) z rfl (by simp; omega)
    simp only [UInt32.toNat_zero, Nat.pow_zero, Nat.mul_one, Nat.zero_add] at h2
    obtain ⟨w, h3, h4⟩ := toU32Step_eq b [x, y, z] v 1 (by omega) y rfl (by simp; omega)
    obtain ⟨u, h5, h6⟩ := toU32Step_eq b [x, y, z] w 2 (by omega) x rfl (by simp; omega)
    refine ⟨u, ?_, ?_⟩
    · simp [bytesToU32, List.range_succ, h1, h3, h5]
    · simp [h2, h4, h6, beVal]; omega
  | [x, y, z, a], _ =>
    have hx := x.toNat_lt; have hy := y.toNat_lt; have hz := z.toNat_lt; have ha := a.toNat_lt
    obtain ⟨v, h1, h2⟩ := toU32Step_eq b [x, y, z, a] 0 0 (by omega) a rfl (by simp; omega)
    simp only [UInt32.toNat_zero, Nat.pow_zero, Nat.mul_one, Nat.zero_add] at h2
    obtain ⟨w, h3, h4⟩ := toU32Step_eq b [x, y, z, a] v 1 (by omega) z rfl (by simp; omega)
    obtain ⟨u, h5, h6⟩ := toU32Step_eq b [x, y, z, a] w 2 (by omega) y rfl (by simp; omega)
    obtain ⟨t, h7, h8⟩ := toU32Step_eq b [x, y, z, a] u 3 (by omega) x rfl (by simp; omega)
    refine ⟨t, ?_, ?_⟩
    · simp [bytesToU32, List.range_succ, h1, h3, h5, h7]
    · simp [h2, h4, h6, h8, beVal]; omega

theorem beVal_append (a : List UInt8) (x : UInt8) : beVal (a ++ [x]) = beVal a * 256 + x.toNat := by
  simp [beVal]

theorem beVal_be (k n : Nat) : beVal (be k n) = n % 256 ^ k := by
  induction k generalizing n with
  | zero => simp [be, beVal]; omega
  | succ k ih =>
    rw [be, beVal_append, ih]
    have h1 : (UInt8.ofNat (n % 256)).toNat = n % 256 := toNat_ofNat_le (by omega)
    rw [h1, Nat.pow_succ, Nat.mul_comm (256 ^ k) 256, Nat.mod_mul]
    omega

/-- C11: writing then reading gives the value modulo 256^len; for a 4-byte buffer the value itself. -/
theorem C11_read_after_write (b b' : Build) (v : UInt32) (buf : List UInt8) (h : buf.length ≤ 4) :
    ∃ bytes w, bytesFromU32 b v buf = .ok bytes ∧ bytesToU32 b' bytes = .ok w ∧
      w.toNat = v.toNat % 256 ^ buf.length ∧ (buf.length = 4 → w = v) := by
  obtain ⟨w, h1, h2⟩ := C11_toU32 b' (be buf.length v.toNat) (by rw [be_length]; exact h)
  rw [beVal_be] at h2
  refine ⟨_, w, C11_fromU32 b v buf h, h1, h2, ?_⟩
  intro h4
  apply UInt32.toNat.inj
  rw [h2, h4]
  have := v.toNat_lt
  omega

theorem be_beVal (bs : List UInt8) : be bs.length (beVal bs) = bs := by
  suffices h : ∀ n, ∀ bs : List UInt8, bs.length = n → be n (beVal bs) = bs from h _ bs rfl
  intro n
  induction n with
  | zero => intro bs h; simp [List.eq_nil_of_length_eq_zero h, be]
  | succ n ih =>
    intro bs h
    have hne : bs ≠ [] := by rintro rfl; simp at h
    have hd := List.dropLast_concat_getLast hne
    rw [← hd, be, beVal_append]
    have hl : bs.dropLast.length = n := by simp [h]
    have hx := (bs.getLast hne).toNat_lt
    rw [show (beVal bs.dropLast * 256 + (bs.getLast hne).toNat) / 256 = beVal bs.dropLast by omega,
      ih _ hl]
    rw [ofNat_eq_of (x := bs.getLast hne) (by omega)]

/-- C11: reading then writing gives the bytes back. -/
theorem C11_write_after_read (b b' : Build) (bytes buf : List UInt8) (h : bytes.length ≤ 4)
    (hl : buf.length = bytes.length) :
    ∃ v, bytesToU32 b bytes = .ok v ∧ bytesFromU32 b' v buf = .ok bytes := by
  obtain ⟨v, h1, h2⟩ := C11_toU32 b bytes h
  refine ⟨v, h1, ?_⟩
  rw [C11_fromU32 b' v buf (by omega), h2, hl, be_beVal]

example : bytesFromU32 .dev 0x12345678 [9, 9, 9] = .ok [0x34, 0x56, 0x78] ∧
    bytesToU32 .dev [0x34, 0x56, 0x78] = .ok 0x345678 := by decide

/-- `foldlM` over `range` panics once one of the iterations always panics. -/
theorem foldlM_range_panic {α : Type} (f : α → Nat → Res α) (k n : Nat) (hk : k < n) (a : α)
    (h : ∀ a, f a k = .panic) : (List.range n).foldlM f a = .panic := by
  have h1 : List.range n = List.range k ++ (k :: (List.range (n - k - 1)).map (fun i => k + 1 + i)) := by
    have h2 : n = k + (1 + (n - k - 1)) := by omega
    rw [h2, List.range_add, List.range_add]
    simp [Nat.add_assoc, List.range_succ, Function.comp_def]
  rw [h1, List.foldlM_append]
  cases (List.range k).foldlM f a with
  | panic => rfl
  | ok x => simp [List.foldlM_cons, h]

theorem foldlM_ok {α β : Type} (f : α → β → Res α) (l : List β) (a : α)
    (h : ∀ a, ∀ b ∈ l, ∃ a', f a b = .ok a') : ∃ a', l.foldlM f a = .ok a' := by
  induction l generalizing a with
  | nil => exact ⟨a, rfl⟩
  | cons x l ih =>
    obtain ⟨a', ha⟩ := h a x (by simp)
    simp only [List.foldlM_cons, ha, Res.bind_ok]
    exact ih a' (fun a b hb => h a b (by simp [hb]))

/-- C12 is false with overflow checks (the default `dev` profile): both conversions panic exactly on
buffers longer than four bytes. -/
theorem C12_panics_iff (bytes : List UInt8) (v : UInt32) :
    (bytesToU32 .dev bytes = .panic ↔ 4 < bytes.length) ∧
    (bytesFromU32 .dev v bytes = .panic ↔ 4 < bytes.length) := by
  refine ⟨⟨?_, ?_⟩, ⟨?_, ?_⟩⟩
  · intro h
    by_cases hl : bytes.length ≤ 4
    · obtain ⟨w, hw, _⟩ := C11_toU32 .dev bytes hl; rw [hw] at h; simp at h
    · omega
  · intro h
    apply foldlM_range_panic _ 4 _ h
    intro a
    simp only [toU32Step, index_lt (show bytes.length - 1 - 4 < bytes.length by omega), Res.bind_ok,
      shlU32]
    simp [Build.dev]
  · intro h
    by_cases hl : bytes.length ≤ 4
    · rw [C11_fromU32 .dev v bytes hl] at h; simp at h
    · omega
  · intro h
    apply foldlM_range_panic _ 4 _ h
    intro a
    simp [fromU32Step, shrU32, Build.dev]

/-- C12 (partial): without overflow checks (`release`), and with them on at most four bytes, both
conversions return. Missing: longer buffers in `dev` builds, where they do panic. -/
theorem C12_no_panic_partial (b : Build) (bytes : List UInt8) (v : UInt32)
    (h : b.overflowChecks = false ∨ bytes.length ≤ 4) :
    (∃ w, bytesToU32 b bytes = .ok w) ∧ (∃ out, bytesFromU32 b v bytes = .ok out) := by
  rcases h with h | h
  · constructor
    · apply foldlM_ok
      intro a n hn
      have hn := List.mem_range.mp hn
      simp only [toU32Step, index_lt (show bytes.length - 1 - n < bytes.length by omega),
        Res.bind_ok, shlU32, addU32, h]
      split <;> simp
      all_goals (split <;> simp)
    · apply foldlM_ok
      intro a n hn
      simp only [fromU32Step, shrU32, h]
      split <;> simp
  · obtain ⟨w, hw, _⟩ := C11_toU32 b bytes h
    exact ⟨⟨w, hw⟩, _, C11_fromU32 b v bytes h⟩

/-- C12 is false: a five-byte value makes `to_u32` panic. -/
theorem C12_fails : bytesToU32 .dev [0, 0, 0, 0, 1] = .panic := by decide

example : Build.release.overflowChecks = false := rfl

/-! ## C13 -/

/-- C13: layout of an identification number built from the 16 UUID bytes `u`. -/
theorem C13_oid_layout (b : Build) (code : UInt32) (u : List UInt8) (hu : u.length = 16) :
    oidNew b code u =
      .ok ([0xFE] ++ be 3 code.toNat ++ (u.drop 3).reverse) := by
  have h3 := C11_fromU32 b code (List.replicate 3 0) (by simp)
  rw [List.length_replicate, be3_eq] at h3
  rw [be3_eq]
  match u, hu with
  | [u0, u1, u2, u3, u4, u5, u6, u7, u8, u9, u10, u11, u12, u13, u14, u15], _ =>
    simp only [oidNew, h3, Res.bind_ok, index, List.getElem?_cons_zero, List.getElem?_cons_succ]
    rfl

/-- C13: the identification number is 17 bytes long and different values of the low 13 UUID bytes
(indices 3..15) give different identification numbers. -/
theorem C13_oid_distinct (b : Build) (code code' : UInt32) (u u' o : List UInt8) (hu : u.length = 16)
    (hu' : u'.length = 16) (h : oidNew b code u = .ok o) (h' : oidNew b code' u' = .ok o) :
    o.length = 17 ∧ u.drop 3 = u'.drop 3 ∧ code.toNat % 2 ^ 24 = code'.toNat % 2 ^ 24 := by
  rw [C13_oid_layout b code u hu] at h
  rw [C13_oid_layout b code' u' hu'] at h'
  simp only [Res.ok.injEq] at h h'
  have he := h.trans h'.symm
  rw [List.append_assoc, List.append_assoc] at he
  obtain ⟨h1, h2⟩ := List.append_inj (List.append_cancel_left he) (by simp [be_length])
  refine ⟨by rw [← h]; simp [be_length, hu], List.reverse_inj.mp h2, ?_⟩
  have := congrArg beVal h1
  rw [beVal_be, beVal_be] at this
  exact this

example : oidNew .dev 0xFFFFFF [0,1,2,3,4,5,6,7,8,9,10,11,12,13,14,15] =
    .ok [0xFE, 0xFF, 0xFF, 0xFF, 15, 14, 13, 12, 11, 10, 9, 8, 7, 6, 5, 4, 3] := by decide

end Uecho
