import Verif.Lemmas.Object
import Verif.Props.Basic
/-!
# Objects and properties: C14–C19, C53, C55
-/
namespace Uecho
open Spec

/-! ## Example objects -/

/-- A readable and writable property with one byte of data. -/
def exProp (c : UInt8) : Property :=
  { Property.new with code := c, data := [0x30], readAttr := .Required, writeAttr := .Optional }

/-- The object made by adding `exProp c` for the given codes to an object with code 0x029001. -/
def exObject (codes : List UInt8) : Res Object :=
  Object.addAll .dev .ascending (Object.fromCode 0x029001) (codes.map exProp)

/-! ## C14 -/

theorem Object.code_toNat (o : Object) :
    o.code.toNat = o.codes.1.toNat * 65536 + o.codes.2.1.toNat * 256 + o.codes.2.2.toNat := by
  have h1 := o.codes.1.toNat_lt
  have h2 := o.codes.2.1.toNat_lt
  have h3 := o.codes.2.2.toNat_lt
  have m1 : o.codes.1.toNat % 256 = o.codes.1.toNat := by omega
  have m2 : o.codes.2.1.toNat % 256 = o.codes.2.1.toNat := by omega
  have m3 : o.codes.2.2.toNat % 256 = o.codes.2.2.toNat := by omega
  have am : ∀ x k : Nat, (x <<< k) &&& (0xFF <<< k) = (x % 256) <<< k := by
    intro x k
    rw [← Nat.shiftLeft_and_distrib]
    congr 1
    exact Nat.and_two_pow_sub_one_eq_mod x 8
  have a1 : (o.codes.1.toNat <<< 16) % 2 ^ 32 &&& 0xFF0000 = o.codes.1.toNat <<< 16 := by
    rw [Nat.mod_eq_of_lt (by rw [Nat.shiftLeft_eq]; omega)]
    have := am o.codes.1.toNat 16
    rw [m1] at this; exact this
  have a2 : (o.codes.2.1.toNat <<< 8) % 2 ^ 32 &&& 0x00FF00 = o.codes.2.1.toNat <<< 8 := by
    rw [Nat.mod_eq_of_lt (by rw [Nat.shiftLeft_eq]; omega)]
    have := am o.codes.2.1.toNat 8
    rw [m2] at this; exact this
  have a3 : o.codes.2.2.toNat &&& 0x0000FF = o.codes.2.2.toNat := by
    have := Nat.and_two_pow_sub_one_eq_mod o.codes.2.2.toNat 8
    rw [show (2 : Nat) ^ 8 - 1 = 0x0000FF by rfl] at this
    rw [this]; omega
  have c1 : o.code.toNat = ((0 ||| (o.codes.1.toNat <<< 16)) ||| (o.codes.2.1.toNat <<< 8)) |||
      o.codes.2.2.toNat := by
    unfold Object.code
    simp only [UInt32.toNat_or, UInt32.toNat_and, UInt32.toNat_shiftLeft, UInt8.toNat_toUInt32,
      UInt32.reduceToNat, Nat.reduceMod, a1, a2, a3]
  rw [c1, Nat.zero_or]
  have e1 : o.codes.1.toNat <<< 16 ||| o.codes.2.1.toNat <<< 8 =
      (o.codes.1.toNat * 256 + o.codes.2.1.toNat) <<< 8 := by
    rw [show (16 : Nat) = 8 + 8 by rfl, Nat.shiftLeft_add, ← Nat.shiftLeft_or_distrib]
    rw [← Nat.shiftLeft_add_eq_or_of_lt (by omega)]
    simp only [Nat.shiftLeft_eq]
  rw [e1, ← Nat.shiftLeft_add_eq_or_of_lt (by omega), Nat.shiftLeft_eq]
  omega

/-- C14: `code()` after `set_code(c)` is the low 24 bits of `c`; the group, class and instance codes
are its bytes; names and properties are untouched. -/
theorem C14_code_setCode (o : Object) (c : UInt32) :
    (o.setCode c).code.toNat = c.toNat % 2 ^ 24 ∧
    (o.setCode c).classGroupCode.toNat = c.toNat / 65536 % 256 ∧
    (o.setCode c).classCode.toNat = c.toNat / 256 % 256 ∧
    (o.setCode c).instanceCode.toNat = c.toNat % 256 ∧
    (o.setCode c).name = o.name ∧ (o.setCode c).className = o.className ∧
    (o.setCode c).properties = o.properties := by
  have e1 := eojBytes_1 c
  have e2 := eojBytes_2 c
  have e3 := eojBytes_3 c
  refine ⟨?_, e1, e2, e3, rfl, rfl, rfl⟩
  rw [Object.code_toNat]
  change (Message.eojBytes c).1.toNat * 65536 + (Message.eojBytes c).2.1.toNat * 256 +
    (Message.eojBytes c).2.2.toNat = _
  rw [e1, e2, e3]; omega

/-- C14: the code determines and is determined by group, class and instance code; the byte setters
change just their byte. -/
theorem C14_code_bytes (o : Object) (x : UInt8) :
    o.code.toNat = o.classGroupCode.toNat * 65536 + o.classCode.toNat * 256 + o.instanceCode.toNat ∧
    ((o.setClassGroupCode x).classGroupCode = x ∧ (o.setClassGroupCode x).classCode = o.classCode ∧
      (o.setClassGroupCode x).instanceCode = o.instanceCode) ∧
    ((o.setClassCode x).classGroupCode = o.classGroupCode ∧ (o.setClassCode x).classCode = x ∧
      (o.setClassCode x).instanceCode = o.instanceCode) ∧
    ((o.setInstanceCode x).classGroupCode = o.classGroupCode ∧
      (o.setInstanceCode x).classCode = o.classCode ∧ (o.setInstanceCode x).instanceCode = x) :=
  ⟨Object.code_toNat o, ⟨rfl, rfl, rfl⟩, ⟨rfl, rfl, rfl⟩, ⟨rfl, rfl, rfl⟩⟩

/-- C14: two objects compare equal exactly if they have the same group, class and instance code
(whatever their properties), and equal objects feed the same value to the hasher. -/
theorem C14_eq_iff (o o' : Object) :
    (o.eq o' = true ↔ (o.classGroupCode = o'.classGroupCode ∧ o.classCode = o'.classCode ∧
      o.instanceCode = o'.instanceCode)) ∧
    (o.eq o' = true ↔ o.code = o'.code) ∧
    (o.eq o' = true → o.hashInput = o'.hashInput) := by
  have key : o.eq o' = true ↔ o.code = o'.code := by
    unfold Object.eq
    by_cases h : o.code = o'.code <;> simp [h]
  refine ⟨key.trans ?_, key, fun h => key.mp h⟩
  constructor
  · intro h
    have h := congrArg UInt32.toNat h
    rw [Object.code_toNat, Object.code_toNat] at h
    have := o.codes.1.toNat_lt; have := o.codes.2.1.toNat_lt; have := o.codes.2.2.toNat_lt
    have := o'.codes.1.toNat_lt; have := o'.codes.2.1.toNat_lt; have := o'.codes.2.2.toNat_lt
    exact ⟨UInt8.toNat.inj (show o.codes.1.toNat = o'.codes.1.toNat by omega),
      UInt8.toNat.inj (show o.codes.2.1.toNat = o'.codes.2.1.toNat by omega),
      UInt8.toNat.inj (show o.codes.2.2.toNat = o'.codes.2.2.toNat by omega)⟩
  · rintro ⟨h1, h2, h3⟩
    apply UInt32.toNat.inj
    rw [Object.code_toNat, Object.code_toNat]
    simp only [Object.classGroupCode, Object.classCode, Object.instanceCode] at h1 h2 h3
    rw [h1, h2, h3]

example : (Object.fromCode 0xAB029001).code = 0x029001 := by decide
example : (Object.fromCode 0x029001).eq (Object.fromCode 0x029002) = false := by decide

/-! ## C15 -/

theorem Property.equalsData_iff (p : Property) (d : List UInt8) :
    p.equalsData d = true ↔ p.data = d := by
  unfold Property.equalsData
  by_cases h : p.data.length = d.length
  · rw [if_neg (by simp [h]), List.all_eq_true]
    constructor
    · intro ha
      apply List.ext_getElem?
      intro i
      by_cases hi : i < d.length
      · simpa using ha i (List.mem_range.mpr hi)
      · rw [List.getElem?_eq_none (by omega), List.getElem?_eq_none (by omega)]
    · rintro rfl i _; simp
  · rw [if_pos h]
    constructor
    · intro h'; simp at h'
    · rintro rfl; exact absurd rfl h

/-- C15: `equals_property_data` and `has_property` are about what `property_data` returns. -/
theorem C15_equals (o : Object) (c : UInt8) (d : List UInt8) :
    (o.equalsPropertyData c d = true ↔ o.propertyData c = some d) ∧
    (o.hasProperty c = true ↔ ∃ d, o.propertyData c = some d) := by
  unfold Object.equalsPropertyData Object.propertyData Object.hasProperty Object.findProperty
  cases h : o.properties c with
  | none => simp
  | some p => simp [Property.equalsData_iff]

/-- C15: writing property data. It succeeds exactly if the property exists; then the data reads back
(through all getters) and nothing else changes; otherwise the object is unchanged. -/
theorem C15_set_property_data (o : Object) (c : UInt8) (d : List UInt8) :
    ((o.setPropertyData c d).1 = true ↔ o.hasProperty c = true) ∧
    (o.hasProperty c = true →
      (o.setPropertyData c d).2.propertyData c = some d ∧
      (o.setPropertyData c d).2.equalsPropertyData c d = true ∧
      (∀ x xs, d = x :: xs → (o.setPropertyData c d).2.propertyDataAsByte c = some x) ∧
      ((o.setPropertyData c d).2.findProperty c).map attrsOf = (o.findProperty c).map attrsOf) ∧
    (o.hasProperty c = false → (o.setPropertyData c d).2 = o ∧
      (o.setPropertyData c d).2.propertyData c = none) ∧
    (∀ c', c' ≠ c → (o.setPropertyData c d).2.findProperty c' = o.findProperty c') ∧
    (o.setPropertyData c d).2.code = o.code ∧
    (o.setPropertyData c d).2.name = o.name ∧
    (o.setPropertyData c d).2.className = o.className := by
  unfold Object.hasProperty Object.setPropertyData Object.propertyData Object.equalsPropertyData
    Object.propertyDataAsByte Object.findProperty
  cases h : o.properties c with
  | none => simp [h]
  | some p =>
    simp [Property.setData, Property.equalsData_iff, Property.dataAsByte, attrsOf, Object.code]
    refine ⟨?_, ?_⟩
    · intro x xs hd; rw [hd]
    · intro c' hc hcc; exact absurd hcc hc

/-- C15: the byte variant writes that one byte. -/
theorem C15_set_property_byte (o : Object) (c v : UInt8) (h : o.hasProperty c = true) :
    (o.setPropertyByte c v).1 = true ∧ (o.setPropertyByte c v).2.propertyData c = some [v] ∧
    (o.setPropertyByte c v).2.propertyDataAsByte c = some v ∧
    (∀ c', c' ≠ c → (o.setPropertyByte c v).2.findProperty c' = o.findProperty c') := by
  obtain ⟨h1, h2, _, h4, _⟩ := C15_set_property_data o c [v]
  obtain ⟨a, _, b, _⟩ := h2 h
  exact ⟨h1.mpr h, a, b v [] rfl, h4⟩

/-- C15: the integer variant (at most four bytes) writes the big-endian bytes and the integer getter
returns the value modulo 256^size, in every build profile. -/
theorem C15_set_property_int (b b' : Build) (o : Object) (c : UInt8) (v : UInt32) (size : Nat)
    (hs : size ≤ 4) (h : o.hasProperty c = true) :
    ∃ o', o.setPropertyInt b c v size = .ok (true, o') ∧
      o'.propertyData c = some (be size v.toNat) ∧
      (0 < size → ∃ w, o'.propertyDataAsInt b' c = .ok (some w) ∧ w.toNat = v.toNat % 256 ^ size) ∧
      (∀ c', c' ≠ c → o'.findProperty c' = o.findProperty c') := by
  have h3 := C11_fromU32 b v (List.replicate size 0) (by simpa using hs)
  rw [List.length_replicate] at h3
  obtain ⟨h1, h2, _, h4, _⟩ := C15_set_property_data o c (be size v.toNat)
  obtain ⟨a, _, _, _⟩ := h2 h
  refine ⟨(o.setPropertyData c (be size v.toNat)).2, ?_, a, ?_, h4⟩
  · simp only [Object.setPropertyInt, h3, Res.bind_ok, Res.pure_eq, Res.ok.injEq]
    rw [← h1.mpr h]
  · intro hpos
    unfold Object.propertyDataAsInt
    unfold Object.propertyData at a
    cases hp : (o.setPropertyData c (be size v.toNat)).2.findProperty c with
    | none => rw [hp] at a; simp at a
    | some p =>
      rw [hp] at a
      simp only [Option.some.injEq] at a
      have hl : (be size v.toNat).length = size := be_length _ _
      obtain ⟨w, hw, hv⟩ := C11_toU32 b' (be size v.toNat) (by omega)
      rw [beVal_be] at hv
      refine ⟨w, ?_, hv⟩
      simp only [Property.dataAsInt, a, hl, show ¬ size ≤ 0 by omega, if_false, hw, Res.bind_ok,
        Res.pure_eq]

example : ∃ o, exObject [0x80, 0xB0, 0x9F] = .ok o ∧ o.hasProperty 0xB0 = true ∧
    (o.setPropertyData 0xB0 [1, 2]).2.propertyData 0x80 = some [0x30] := by
  refine ⟨_, rfl, ?_, ?_⟩ <;> decide +kernel

/-! ## C16 -/

/-- C16: adding a property. The object keeps its identity and every property it had (data, attributes,
capacity, name, enumerations); if the code was new the given property is added, and nothing else
appears. Only the *data* of the three property maps may change. -/
theorem C16_add_property (b : Build) (ω : HashOrder) (o o' : Object) (p : Property)
    (h : o.addProperty b ω.here p = .ok o') :
    (∀ c q, o.findProperty c = some q →
      ∃ q', o'.findProperty c = some q' ∧ attrsOf q' = attrsOf q ∧ (isMapCode c = false → q' = q)) ∧
    (o.findProperty p.code = none →
      ∃ q', o'.findProperty p.code = some q' ∧ attrsOf q' = attrsOf p ∧
        (isMapCode p.code = false → q' = p)) ∧
    (∀ c, c ≠ p.code → o.findProperty c = none → o'.findProperty c = none) ∧
    o'.code = o.code ∧ o'.name = o.name ∧ o'.className = o.className := by
  obtain ⟨h1, h2⟩ := Object.addProperty_same h
  refine ⟨?_, ?_, ?_, ?_, h2.2.1, h2.2.2⟩
  · intro c q hq
    refine h1.symm.some ?_
    rw [Object.orInsert_props]
    unfold Object.findProperty at hq
    split <;> simp [hq]
  · intro hn
    refine h1.symm.some ?_
    unfold Object.findProperty at hn
    rw [Object.orInsert_props]; simp [hn]
  · intro c hc hn
    have := h1.isSome c
    rw [Object.orInsert_props, if_neg hc] at this
    unfold Object.findProperty at hn ⊢
    rw [hn] at this
    simpa using this
  · unfold Object.code; rw [h2.1]

/-- C16: adding a property with a valid code to an object with valid codes never panics; in a build
without overflow checks it never panics at all. -/
theorem C16_add_property_no_panic (b : Build) (ω : HashOrder) (o : Object) (p : Property)
    (h : b.overflowChecks = false ∨ (CodesOk o ∧ 0x80 ≤ p.code)) :
    ∃ o', o.addProperty b ω.here p = .ok o' :=
  Object.addProperty_no_panic ω.isOrder (h.imp id (·.1)) (h.imp id (·.2))

/-- C16 (finding): with overflow checks, a property code below 0x80 can panic. -/
theorem C16_panics_below_0x80 :
    exObject [0x10, 0x80, 0x81, 0x82, 0x83, 0x84, 0x85, 0x86, 0x87, 0x88, 0x89, 0x8A, 0x8B, 0x8C, 0x8D,
      0x8E] = .panic := by
  have h : (exObject [0x10, 0x80, 0x81, 0x82, 0x83, 0x84, 0x85, 0x86, 0x87, 0x88, 0x89, 0x8A, 0x8B, 0x8C,
      0x8D, 0x8E]).isOk = false := by decide +kernel
  exact Res.isOk_eq_false.mp h

example : ∃ o, exObject [0x80, 0xB0, 0x9F] = .ok o ∧
    ∃ o', o.addProperty .dev HashOrder.ascending.here { exProp 0xB0 with data := [9] } = .ok o' ∧
      o'.propertyData 0xB0 = some [0x30] := by
  refine ⟨_, rfl, _, rfl, ?_⟩; decide +kernel

/-! ## C17 -/

/-- C17, exact content of the property maps. Right after any `add_property` on an object whose property
codes are valid, each of the three property maps (if the object has it) lists — read according to
Annex 1 of the standard — exactly the accessible properties, *except* that with 16 or more accessible
properties those with a code of 0xC0 or above are missing. -/
theorem C17_property_maps_partial (b : Build) (ω : HashOrder) (o o' : Object) (p : Property)
    (hk : KeysOk o) (hc : CodesOk o) (hp : 0x80 ≤ p.code)
    (h : o.addProperty b ω.here p = .ok o') (code : UInt8) (sel : Property → Bool)
    (hm : (code, sel) ∈ [(0x9F, Property.isReadable), (0x9E, Property.isWritable),
      ((0x9D : UInt8), Property.isAnnounceable)])
    (data : List UInt8) (hd : o'.propertyData code = some data) (c : UInt8) :
    mapContains data c = true ↔
      c ∈ accessible o' sel ∧ ((accessible o' sel).length ≤ 15 ∨ c < 0xC0) := by
  have hsel : ∀ q, sel (attrsOf q) = sel q := by
    intro q
    simp only [List.mem_cons, Prod.mk.injEq, List.not_mem_nil, or_false] at hm
    rcases hm with ⟨_, rfl⟩ | ⟨_, rfl⟩ | ⟨_, rfl⟩ <;> rfl
  have hk1 : KeysOk (o.orInsert p) := Object.orInsert_keysOk hk
  have hc1 : CodesOk (o.orInsert p) := Object.orInsert_codesOk hc hp
  have hacc : accessible o' sel = accessible (o.orInsert p) sel :=
    Object.accessible_congr (Object.addProperty_same h).1 hsel
  have hperm := Object.mapCodes_perm hk1 ω.isOrder sel
  obtain ⟨d9F, d9E, d9D⟩ := Object.updatePropertyMaps_data h
  have hbytes : toPropertyMapBytes b ((o.orInsert p).mapCodes ω.here sel) = .ok data := by
    unfold Object.propertyData Object.findProperty at hd
    cases hq : o'.properties code with
    | none => rw [hq] at hd; simp at hd
    | some q =>
      rw [hq] at hd
      simp only [Option.some.injEq] at hd
      subst hd
      simp only [List.mem_cons, Prod.mk.injEq, List.not_mem_nil, or_false] at hm
      rcases hm with ⟨rfl, rfl⟩ | ⟨rfl, rfl⟩ | ⟨rfl, rfl⟩
      · exact d9F q hq
      · exact d9E q hq
      · exact d9D q hq
  rw [toPropertyMapBytes_contains b _ data ?_ ?_ hbytes c, hperm.length_eq, hperm.mem_iff, hacc]
  · intro e he
    obtain ⟨k, q, h1, _, rfl⟩ := (Object.mem_mapCodes ω.isOrder).mp he
    exact hc1 k q h1
  · rw [hperm.length_eq]; exact Object.accessible_length hc1 hk1 sel

/-- The condition of C17 in user terms: the object has a readable property 0xF0 whose code is missing in
the Get property map. -/
def Spec.MapMisses (o : Object) (c : UInt8) : Prop :=
  c ∈ accessible o Property.isReadable ∧
    ∃ data, o.propertyData 0x9F = some data ∧ mapContains data c = false

instance (o : Object) (c : UInt8) : Decidable (MapMisses o c) :=
  match h : o.propertyData 0x9F with
  | some data => decidable_of_iff (c ∈ accessible o Property.isReadable ∧ mapContains data c = false)
      (by unfold MapMisses; rw [h]; simp)
  | none => .isFalse (by unfold MapMisses; rw [h]; simp)

/-- C17 is false: with 16 readable properties the Get property map loses 0xF0 (the mask `& 0x0F` at
src/object.rs:258 drops the bits of codes 0xC0..0xFF). -/
theorem C17_fails : ∃ o, exObject [0x80, 0x81, 0x82, 0x83, 0x84, 0x85, 0x86, 0x87, 0x88, 0x89, 0x8A, 0x8B,
    0x8C, 0x8D, 0x9F, 0xF0] = .ok o ∧ MapMisses o 0xF0 ∧ ¬ MapMisses o 0x80 := by
  refine ⟨_, rfl, ?_, ?_⟩ <;> decide +kernel

/-- With few properties nothing is missing: the hypotheses of `C17_property_maps_partial` are met and
the map is exact. -/
example : ∃ o, exObject [0x80, 0xF0, 0x9F] = .ok o ∧ o.propertyData 0x9F = some [3, 0x80, 0x9F, 0xF0] ∧
    ¬ MapMisses o 0xF0 := by
  refine ⟨_, rfl, ?_, ?_⟩ <;> decide +kernel

/-- The maps after adding several properties are those written by the last one. -/
theorem addAll_maps {b : Build} {code : UInt8} {sel : Property → Bool}
    (hm : (code, sel) ∈ [(0x9F, Property.isReadable), (0x9E, Property.isWritable),
      ((0x9D : UInt8), Property.isAnnounceable)]) (c : UInt8) :
    ∀ (ps : List Property) (ω : HashOrder) (x y : Object), KeysOk x → CodesOk x →
      (∀ p ∈ ps, 0x80 ≤ p.code) → Object.addAll b ω x ps = .ok y → (ps ≠ [] ∨ x.propertyData code = none) →
      ∀ data, y.propertyData code = some data →
      (mapContains data c = true ↔
        c ∈ accessible y sel ∧ ((accessible y sel).length ≤ 15 ∨ c < 0xC0)) := by
  intro ps
  induction ps with
  | nil =>
    intro ω x y _ _ _ hy hne data hd
    simp only [Object.addAll, Res.ok.injEq] at hy
    subst hy
    rcases hne with h | h
    · exact absurd rfl h
    · rw [h] at hd; simp at hd
  | cons p ps ih =>
    intro ω x y hkx hcx hps hy _ data hd
    simp only [Object.addAll] at hy
    obtain ⟨x1, h1, h2⟩ := Res.bind_eq_ok.mp hy
    have hp := hps p (by simp)
    cases hnil : ps with
    | nil =>
      rw [hnil] at h2
      simp only [Object.addAll, Res.ok.injEq] at h2
      subst h2
      exact C17_property_maps_partial b _ x x1 p hkx hcx hp h1 code sel hm data hd c
    | cons q qs =>
      exact ih _ x1 y (Object.addProperty_keysOk h1 hkx) (Object.addProperty_codesOk h1 hcx hp)
        (fun r hr => hps r (by simp [hr])) h2 (Or.inl (by rw [hnil]; simp)) data hd

/-- C17 for every history of additions: adding any properties with valid codes to a new object never panics; the object
then has, for each code, the first property given with that code, and each of the three property maps (if it has it) lists
exactly the codes whose first definition is accessible, *except* that with 16 or more of them those from 0xC0 up are
missing. `l` lists those codes (each once). -/
theorem C17_history_partial (b : Build) (ω : HashOrder) (cd : UInt32) (ps : List Property) (hps : ∀ p ∈ ps, 0x80 ≤ p.code) :
    ∃ o, Object.addAll b ω (Object.fromCode cd) ps = .ok o ∧
      (∀ c, (o.findProperty c).map attrsOf = (ps.find? (fun p => p.code == c)).map attrsOf) ∧
      ∀ (code : UInt8) (sel : Property → Bool),
        (code, sel) ∈ [(0x9F, Property.isReadable), (0x9E, Property.isWritable),
          ((0x9D : UInt8), Property.isAnnounceable)] →
        ∀ data, o.propertyData code = some data →
          ∃ l : List UInt8, l.Nodup ∧ (∀ c, c ∈ l ↔ ∃ p, ps.find? (fun p => p.code == c) = some p ∧ sel p = true) ∧
            ∀ c, mapContains data c = true ↔ c ∈ l ∧ (l.length ≤ 15 ∨ c < 0xC0) := by
  have hk0 : KeysOk (Object.fromCode cd) := fun k p hp => by simp [Object.fromCode, Object.new, Object.setCode] at hp
  have hc0 : CodesOk (Object.fromCode cd) := fun k p hp => by simp [Object.fromCode, Object.new, Object.setCode] at hp
  obtain ⟨o, ho⟩ := Object.addAll_no_panic (b := b) (ω := ω) (o := Object.fromCode cd) (ps := ps) (Or.inr hc0) (Or.inr hps)
  have hsame := (Object.addAll_same ho).1
  have hfirst : ∀ c, (o.findProperty c).map attrsOf = (ps.find? (fun p => p.code == c)).map attrsOf := by
    intro c
    unfold Object.findProperty
    rw [(hsame c).2, Object.foldl_orInsert_props]
    rfl
  refine ⟨o, ho, hfirst, ?_⟩
  intro code sel hm data hd
  have hsel : ∀ q, sel (attrsOf q) = sel q := by
    intro q
    simp only [List.mem_cons, Prod.mk.injEq, List.not_mem_nil, or_false] at hm
    rcases hm with ⟨_, rfl⟩ | ⟨_, rfl⟩ | ⟨_, rfl⟩ <;> rfl
  refine ⟨accessible o sel, ?_, ?_, ?_⟩
  · unfold accessible
    exact allCodes_nodup.filter _
  · intro c
    have := hfirst c
    unfold Object.findProperty at this
    unfold accessible
    rw [List.mem_filter]
    simp only [mem_allCodes, true_and]
    constructor
    · intro h
      cases hq : o.properties c with
      | none => rw [hq] at h; simp at h
      | some q =>
        rw [hq] at h this
        obtain ⟨p, hp, he⟩ := Option.map_eq_some_iff.mp (this.symm.trans (Option.map_some ..))
        exact ⟨p, hp, by rw [← hsel p, he, hsel q]; exact h⟩
    · rintro ⟨p, hp, h⟩
      rw [hp] at this
      obtain ⟨q, hq, he⟩ := Option.map_eq_some_iff.mp (this.trans (Option.map_some ..))
      rw [hq]
      simp only []
      rw [← hsel q, he, hsel p]; exact h
  · intro c
    exact addAll_maps hm c ps ω _ o hk0 hc0 hps ho (Or.inr rfl) data hd

example : ∀ p ∈ [exProp 0x80, exProp 0xF0, exProp 0x80], 0x80 ≤ p.code := by decide

/-! ## C18 -/

/-- C18: cloning an object whose properties are filed under their own codes keeps code, names and all
properties with attributes and data; only the data of the property maps is recomputed. The clone is
again filed correctly. -/
theorem C18_clone (b : Build) (ω : HashOrder) (o o' : Object) (hk : KeysOk o)
    (h : o.clone b ω = .ok o') :
    o'.code = o.code ∧ o'.name = o.name ∧ o'.className = o.className ∧ o'.eq o = true ∧
    (∀ c, isMapCode c = false → o'.findProperty c = o.findProperty c) ∧
    (∀ c, (o'.findProperty c).map attrsOf = (o.findProperty c).map attrsOf) ∧ KeysOk o' := by
  obtain ⟨h1, h2⟩ := Object.clone_same hk h
  have hcode : o'.code = o.code := by unfold Object.code; rw [h2.1]
  exact ⟨hcode, h2.2.1, h2.2.2, ((C14_eq_iff o' o).2.1).mpr hcode, fun c hc => (h1 c).1 hc,
    fun c => (h1 c).2, Object.keysOk_congr h1.symm hk⟩

/-- C18: cloning never panics for objects with valid property codes, nor in a build without overflow
checks. -/
theorem C18_clone_no_panic (b : Build) (ω : HashOrder) (o : Object)
    (h : b.overflowChecks = false ∨ CodesOk o) : ∃ o', o.clone b ω = .ok o' :=
  Object.clone_no_panic h

/-- C18: the recomputed property maps of a clone are those described by C17, for the original's
properties. -/
theorem C18_clone_maps (b : Build) (ω : HashOrder) (o o' : Object) (hk : KeysOk o) (hc : CodesOk o)
    (h : o.clone b ω = .ok o') (code : UInt8) (sel : Property → Bool)
    (hm : (code, sel) ∈ [(0x9F, Property.isReadable), (0x9E, Property.isWritable),
      ((0x9D : UInt8), Property.isAnnounceable)])
    (data : List UInt8) (hd : o'.propertyData code = some data) (c : UInt8) :
    mapContains data c = true ↔
      c ∈ accessible o sel ∧ ((accessible o sel).length ≤ 15 ∨ c < 0xC0) := by
  have hsel : ∀ q, sel (attrsOf q) = sel q := by
    intro q
    simp only [List.mem_cons, Prod.mk.injEq, List.not_mem_nil, or_false] at hm
    rcases hm with ⟨_, rfl⟩ | ⟨_, rfl⟩ | ⟨_, rfl⟩ <;> rfl
  rw [← Object.accessible_congr (Object.clone_same hk h).1 hsel]
  -- the last `add_property` of the clone loop wrote the maps
  refine addAll_maps hm c _ _ _ _ (fun k p hp => by simp at hp) (fun k p hp => by simp at hp) ?_ h
    (Or.inr rfl) data hd
  intro p hp
  obtain ⟨k, _, hk'⟩ := List.mem_filterMap.mp hp
  exact hc k p hk'

/-- C18 (finding): a property whose code was changed in place (`find_property_mut`, `Property::set_code`) is filed
under its new code in the clone, and missing under the old one: here 0xF0, renamed to 0x80, loses against 0x80. -/
theorem C18_fails_renamed : ∃ o o', exObject [0x80, 0xF0] = .ok o ∧
    (Object.clone .dev .ascending { o with properties := fun c =>
      if c = 0xF0 then (o.properties c).map (fun p => p.setCode 0x80) else o.properties c }) = .ok o' ∧
    o.propertyData 0xF0 = some [0x30] ∧ o'.propertyData 0xF0 = none :=
  ⟨_, _, rfl, rfl, by decide +kernel, by decide +kernel⟩

example : ∃ o, exObject [0x80, 0xF0, 0x9F] = .ok o ∧ ∃ o', o.clone .dev .ascending = .ok o' ∧
    o'.propertyData 0xF0 = some [0x30] ∧ o'.propertyData 0x9F = some [3, 0x80, 0x9F, 0xF0] := by
  refine ⟨_, rfl, _, rfl, ?_, ?_⟩ <;> decide +kernel

end Uecho
