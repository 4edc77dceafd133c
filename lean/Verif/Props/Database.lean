import Verif.Spec.Database
import Verif.Props.Import
/-!
# The standard database: C21
-/
namespace Uecho
open Spec

/-! ## Building objects from a table -/

/-- A table entry becomes exactly the property it declares. -/
theorem PropDef.toProperty_eq (d : PropDef) : d.toProperty = declared d := by
  have hrule : ∀ a, propertyStringToAttribute a = ruleOf a := by intro a; cases a <;> rfl
  have h1 := Property.foldl_addEnum_attrs d.enums
    { Property.new with
        code := d.code, name := d.name, typ := d.typ, capacity := d.size,
        readAttr := propertyStringToAttribute d.get, writeAttr := propertyStringToAttribute d.set,
        annoAttr := propertyStringToAttribute d.anno } (declared d).enums
  have h2 : d.toProperty.enums = (declared d).enums := by
    funext c
    unfold PropDef.toProperty
    rw [Property.foldl_addEnum]
    show _ = d.enums.reverse.find? (fun e => e.code == c)
    cases d.enums.reverse.find? (fun e => e.code == c) <;> rfl
  change { d.toProperty with enums := (declared d).enums } = _ at h1
  rw [← h2] at h1
  refine h1.trans ?_
  rw [hrule, hrule, hrule, h2]
  rfl

theorem PropDef.toProperty_code (d : PropDef) : d.toProperty.code = d.code := by rw [toProperty_eq]; rfl

theorem find_toProperty (ps : List PropDef) (c : UInt8) :
    (ps.map PropDef.toProperty).find? (fun p => p.code == c) =
      (ps.find? (fun p => p.code == c)).map declared := by
  rw [List.find?_map, show PropDef.toProperty = declared from funext PropDef.toProperty_eq]
  rfl

theorem Object.addAll_keysOk {b : Build} {ω : HashOrder} {o o' : Object} {ps : List Property}
    (h : addAll b ω o ps = .ok o') (hk : KeysOk o) : KeysOk o' := by
  refine keysOk_congr (addAll_same h).1.symm ?_
  clear h
  induction ps generalizing o with
  | nil => exact hk
  | cons p ps ih => exact ih (orInsert_keysOk hk)

theorem ClassDef.build_represents {b : Build} {ω : HashOrder} {d : ClassDef} {o : Object}
    (h : d.build b ω = .ok o) : Represents d o := by
  obtain ⟨h1, h2⟩ := Object.addAll_same h
  refine ⟨?_, h2.2.2, h2.2.1, ?_, Object.addAll_keysOk h (fun k p hp => by simp [ClassDef.create, Object.setClassName, Object.setClassCode, Object.setClassGroupCode, Object.new] at hp)⟩
  · rw [Object.code_toNat, h2.1]
    show d.grp.toNat * 65536 + d.cls.toNat * 256 + 0 = classCode d
    rw [Nat.add_zero]; unfold classCode; rfl
  · have : ((d.props.map PropDef.toProperty).foldl Object.orInsert d.create).properties = firstDef d := by
      funext c
      rw [Object.foldl_orInsert_props]
      exact find_toProperty d.props c
    rw [← this]; exact h1

/-- All property codes of a class are valid. -/
def ClassDef.valid (d : ClassDef) : Bool := d.props.all (fun p => decide (0x80 ≤ p.code))

theorem ClassDef.build_no_panic {b : Build} {ω : HashOrder} {d : ClassDef}
    (h : b.overflowChecks = false ∨ d.valid = true) : ∃ o, d.build b ω = .ok o := by
  apply Object.addAll_no_panic
  · exact Or.inr (fun k p hp => by simp [ClassDef.create, Object.setClassName, Object.setClassCode, Object.setClassGroupCode, Object.new] at hp)
  · refine h.imp id fun h p hp => ?_
    obtain ⟨q, hq, rfl⟩ := List.mem_map.mp hp
    rw [PropDef.toProperty_code]
    simpa using List.all_eq_true.mp h q hq

theorem buildObjects_spec {b : Build} {ω : HashOrder} {ds : List ClassDef} {os : List Object}
    (h : buildObjects b ω ds = .ok os) :
    os.length = ds.length ∧ ∀ i (hi : i < os.length) (hi' : i < ds.length), Represents ds[i] os[i] := by
  induction ds generalizing os ω with
  | nil =>
    simp only [buildObjects, Res.ok.injEq] at h
    subst h; simp
  | cons d ds ih =>
    simp only [buildObjects] at h
    obtain ⟨o, h1, h⟩ := Res.bind_eq_ok.mp h
    obtain ⟨os', h2, h⟩ := Res.bind_eq_ok.mp h
    simp only [Res.pure_eq, Res.ok.injEq] at h
    subst h
    obtain ⟨i1, i2⟩ := ih h2
    refine ⟨by simp [i1], fun i hi hi' => ?_⟩
    cases i with
    | zero => exact ClassDef.build_represents h1
    | succ j => exact i2 j (by simpa using hi) (by simpa using hi')

theorem buildObjects_no_panic {b : Build} {ω : HashOrder} {ds : List ClassDef}
    (h : b.overflowChecks = false ∨ ∀ d ∈ ds, d.valid = true) : ∃ os, buildObjects b ω ds = .ok os := by
  induction ds generalizing ω with
  | nil => exact ⟨[], rfl⟩
  | cons d ds ih =>
    obtain ⟨o, h1⟩ := ClassDef.build_no_panic (ω := ω.sub 0) (h.imp id (fun h => h d (by simp)))
    obtain ⟨os, h2⟩ := ih (ω := ω.sub 1) (h.imp id (fun h e he => h e (by simp [he])))
    exact ⟨o :: os, by simp only [buildObjects, h1, h2, Res.bind_ok, Res.pure_eq]⟩

/-! ## C21 -/

/-- C21: every property code of the table is a valid ECHONET property code. -/
theorem C21_codes_valid : ∀ d ∈ Table.classes, ∀ p ∈ d.props, 0x80 ≤ p.code := by
  have h : Table.classes.all (fun d => d.valid) = true := by decide +kernel
  intro d hd p hp
  have := List.all_eq_true.mp h d hd
  simpa using List.all_eq_true.mp this p hp

/-- C21: no two classes of the table share a class code. -/
theorem C21_class_codes_distinct : (Table.classes.map classCode).Nodup := by decide +kernel

/-- C21: manufacturer codes are unique. -/
theorem C21_manufacturer_codes_distinct : (Table.manufacturers.map (fun m => m.code)).Nodup := by
  decide +kernel

/-- Strictly increasing (checker used below). -/
def strictlyIncreasing : List Nat → Bool
  | [] => true
  | [_] => true
  | x :: y :: l => decide (x < y) && strictlyIncreasing (y :: l)

theorem strictlyIncreasing_pairwise : ∀ l : List Nat, strictlyIncreasing l = true →
    l.Pairwise (· < ·)
  | [], _ => List.Pairwise.nil
  | [x], _ => List.pairwise_singleton _ _
  | x :: y :: l, h => by
    simp only [strictlyIncreasing, Bool.and_eq_true, decide_eq_true_eq] at h
    have ih := strictlyIncreasing_pairwise (y :: l) h.2
    refine List.pairwise_cons.mpr ⟨fun z hz => ?_, ih⟩
    rcases List.mem_cons.mp hz with rfl | hz
    · exact h.1
    · exact Nat.lt_trans h.1 ((List.pairwise_cons.mp ih).1 z hz)

theorem eq_of_nodup_map {α β : Type} {f : α → β} : ∀ {l : List α}, (l.map f).Nodup →
    ∀ {a c : α}, a ∈ l → c ∈ l → f a = f c → a = c
  | [], _, _, _, ha, _, _ => by simp at ha
  | x :: l, h, a, c, ha, hc, he => by
    rw [List.map_cons, List.nodup_cons] at h
    rcases List.mem_cons.mp ha with h1 | h1 <;> rcases List.mem_cons.mp hc with h2 | h2
    · rw [h1, h2]
    · exact absurd (List.mem_map.mpr ⟨c, h2, by rw [← he, h1]⟩) h.1
    · exact absurd (List.mem_map.mpr ⟨a, h1, by rw [he, h2]⟩) h.1
    · exact eq_of_nodup_map h.2 h1 h2 he

/-- C21: within one property the enumeration codes are unique, so no enumeration is lost. -/
theorem C21_enum_codes_distinct :
    ∀ d ∈ Table.classes, ∀ p ∈ d.props, (p.enums.map (fun e => e.code)).Nodup := by
  have h : Table.classes.all (fun d => d.props.all (fun p =>
      strictlyIncreasing (p.enums.map (fun e => e.code.toNat)) ||
      decide ((p.enums.map (fun e => e.code)).Nodup))) = true := by decide +kernel
  intro d hd p hp
  have h1 := List.all_eq_true.mp h d hd
  have h2 := List.all_eq_true.mp h1 p hp
  simp only [Bool.or_eq_true, decide_eq_true_eq] at h2
  rcases h2 with h2 | h2
  · have h2 := strictlyIncreasing_pairwise _ h2
    rw [List.nodup_iff_pairwise_ne, List.pairwise_map]
    rw [List.pairwise_map] at h2
    exact h2.imp (fun {x y} hlt heq => by rw [heq] at hlt; exact absurd hlt (Nat.lt_irrefl _))
  · exact h2

/-- C21: the database can always be built, in every build profile and for all hash orders, and its
objects are, in order, the classes of the table with valid property codes. -/
theorem C21_builds (b : Build) (ω : HashOrder) :
    ∃ db, standardDb b ω = .ok db ∧ db.manufactures = Table.manufacturers ∧
      db.objects.length = Table.classes.length ∧
      ∀ i (hi : i < db.objects.length) (hi' : i < Table.classes.length),
        Represents Table.classes[i] db.objects[i] ∧ CodesOk db.objects[i] := by
  obtain ⟨os, h⟩ := buildObjects_no_panic (b := b) (ω := ω) (ds := Table.classes)
    (Or.inr (fun d hd => List.all_eq_true.mpr (fun p hp => by simpa using C21_codes_valid d hd p hp)))
  obtain ⟨h1, h2⟩ := buildObjects_spec h
  refine ⟨⟨Table.manufacturers, os⟩, by simp only [standardDb, Database.build, h, Res.bind_ok, Res.pure_eq],
    rfl, h1, fun i hi hi' => ⟨h2 i hi hi', ?_⟩⟩
  obtain ⟨_, _, _, hs, _⟩ := h2 i hi hi'
  refine Object.codesOk_congr hs.symm (o := ⟨(0, 0, 0), "", "", firstDef Table.classes[i]⟩) ?_
  intro k p hp
  obtain ⟨q, hq, rfl⟩ := Option.map_eq_some_iff.mp hp
  change 0x80 ≤ q.code
  exact C21_codes_valid _ (List.getElem_mem hi') q (List.mem_of_find?_eq_some hq)

theorem mask_code (code : UInt32) : (code &&& 0xFFFF00).toNat = code.toNat / 256 % 65536 * 256 := by
  rw [UInt32.toNat_and, show (0xFFFF00 : UInt32).toNat = 0xFFFF00 by rfl]
  have h1 : (0xFFFF00 : Nat) = 0xFFFF <<< 8 := by decide
  apply Nat.eq_of_testBit_eq
  intro i
  rw [show code.toNat / 256 % 65536 * 256 = (code.toNat / 2 ^ 8 % 2 ^ 16) * 2 ^ 8 by rfl]
  rw [Nat.testBit_and, h1, Nat.testBit_shiftLeft, Nat.testBit_mul_two_pow, Nat.testBit_mod_two_pow,
    Nat.testBit_div_two_pow]
  rw [show (0xFFFF : Nat) = 2 ^ 16 - 1 by rfl, Nat.testBit_two_pow_sub_one]
  by_cases h8 : 8 ≤ i
  · have : i - 8 + 8 = i := by omega
    simp only [h8, decide_true, Bool.true_and, this]
    rw [Bool.and_comm]
  · simp [h8]

/-- C21: looking up an object. `find_object` ignores the instance code (and anything above 24 bits), it
finds every class of the table under its class code, and whatever it finds represents the table entry
with that class code. -/
theorem C21_find_object (b : Build) (ω : HashOrder) (db : Database) (h : standardDb b ω = .ok db)
    (code : UInt32) :
    (∀ code' : UInt32, code'.toNat / 256 % 65536 = code.toNat / 256 % 65536 →
      db.findObject code' = db.findObject code) ∧
    (∀ o, db.findObject code = some o → ∃ d ∈ Table.classes,
      classCode d = code.toNat / 256 % 65536 * 256 ∧ Represents d o ∧ CodesOk o) ∧
    (∀ d ∈ Table.classes, classCode d = code.toNat / 256 % 65536 * 256 →
      ∃ o, db.findObject code = some o ∧ Represents d o ∧ CodesOk o) := by
  obtain ⟨db', h', _, hl, hr⟩ := C21_builds b ω
  rw [h] at h'
  simp only [Res.ok.injEq] at h'
  subst h'
  have hmem : ∀ o ∈ db.objects, ∃ d ∈ Table.classes, Represents d o ∧ CodesOk o := by
    intro o ho
    obtain ⟨i, hi, rfl⟩ := List.mem_iff_getElem.mp ho
    exact ⟨Table.classes[i]'(by omega), List.getElem_mem _, hr i hi (by omega)⟩
  have hsound : ∀ o, db.findObject code = some o → ∃ d ∈ Table.classes,
      classCode d = code.toNat / 256 % 65536 * 256 ∧ Represents d o ∧ CodesOk o := by
    intro o ho
    obtain ⟨d, hd, hrep, hc⟩ := hmem o (List.mem_of_find?_eq_some ho)
    refine ⟨d, hd, ?_, hrep, hc⟩
    have := List.find?_some ho
    simp only [beq_iff_eq] at this
    rw [← hrep.1, this, mask_code]
  refine ⟨?_, hsound, ?_⟩
  · intro code' hc
    unfold Database.findObject
    have : code' &&& 0xFFFF00 = code &&& 0xFFFF00 := by
      apply UInt32.toNat.inj; rw [mask_code, mask_code, hc]
    rw [this]
  · intro d hd hdc
    cases hf : db.findObject code with
    | some o =>
      obtain ⟨d', hd', hdc', hrep⟩ := hsound o hf
      have heq : d' = d := eq_of_nodup_map C21_class_codes_distinct hd' hd (hdc'.trans hdc.symm)
      rw [heq] at hrep
      exact ⟨o, rfl, hrep⟩
    | none =>
      exfalso
      obtain ⟨i, hi, rfl⟩ := List.mem_iff_getElem.mp hd
      have hi' : i < db.objects.length := by omega
      have := List.find?_eq_none.mp hf db.objects[i] (List.getElem_mem _)
      apply this
      simp only [beq_iff_eq]
      apply UInt32.toNat.inj
      rw [(hr i hi' hi).1.1, mask_code, hdc]

/-- C21: looking up a manufacturer finds exactly the entry with that code. -/
theorem C21_find_manufacturer (b : Build) (ω : HashOrder) (db : Database) (h : standardDb b ω = .ok db)
    (code : UInt32) (m : Manufacture) :
    db.findManufacture code = some m ↔ m ∈ Table.manufacturers ∧ m.code = code := by
  obtain ⟨db', h', hm, _⟩ := C21_builds b ω
  rw [h] at h'
  simp only [Res.ok.injEq] at h'
  subst h'
  unfold Database.findManufacture
  rw [hm]
  constructor
  · intro hf
    exact ⟨List.mem_of_find?_eq_some hf, by simpa using List.find?_some hf⟩
  · rintro ⟨hmem, rfl⟩
    cases hf : Table.manufacturers.find? (fun x => x.code == m.code) with
    | none => exact absurd (by simp) (List.find?_eq_none.mp hf m hmem)
    | some m' =>
      have h1 := List.find?_some hf
      simp only [beq_iff_eq] at h1
      have h2 := List.mem_of_find?_eq_some hf
      rw [eq_of_nodup_map C21_manufacturer_codes_distinct h2 hmem h1]

/-- C21: the super class (code 0x0000) has the three property maps and the status properties, all of
them readable. -/
theorem C21_super_class_properties (c : UInt8)
    (hc : c ∈ [0x9D, 0x9E, 0x9F, 0x80, 0x81, 0x82, 0x83, 0x88, (0x8A : UInt8)]) :
    ∃ p, firstDef Table.class_0000 c = some p ∧ p.isReadable = true := by
  have : ([0x9D, 0x9E, 0x9F, 0x80, 0x81, 0x82, 0x83, 0x88, (0x8A : UInt8)].all fun c =>
      match firstDef Table.class_0000 c with
      | some p => p.isReadable
      | none => false) = true := by decide +kernel
  have := List.all_eq_true.mp this c hc
  cases hf : firstDef Table.class_0000 c with
  | none => rw [hf] at this; simp at this
  | some p => rw [hf] at this; exact ⟨p, rfl, this⟩

/-- C21 (finding): the table defines some properties twice with different access rules; `add_property`
silently keeps the first. The identification number 0x83 of the super class is listed first as writable
and then as not writable. -/
theorem C21_duplicate_definitions_conflict :
    ∃ d ∈ Table.classes, ∃ p ∈ d.props, ∃ q ∈ d.props, p.code = q.code ∧
      (firstDef d p.code).map (fun x => x.isWritable) = some true ∧ q.toProperty.isWritable = false := by
  refine ⟨Table.class_0000, by simp [Table.classes], ?_⟩
  refine ⟨⟨0x83, _, _, _, _, _, _, _⟩, List.mem_of_getElem? (i := 4) rfl,
    ⟨0x83, _, _, _, _, _, _, _⟩, List.mem_of_getElem? (i := 5) rfl, rfl, ?_, ?_⟩ <;> decide +kernel

/-- C21 (finding): access rules "required_c" and "required_o" of the machine-readable appendix
(required under a condition) are treated as prohibited: the table has properties whose get rule is one
of them, and they are not readable. -/
theorem C21_conditional_rules_prohibited (p : PropDef) (h : p.get = .required_c ∨ p.get = .required_o) :
    p.toProperty.isReadable = false := by
  rw [PropDef.toProperty_eq]
  show (match ruleOf p.get with | .Prohibited => false | .Required => true | .Optional => true) = false
  rcases h with h | h <;> rw [h] <;> rfl

example : ∃ d ∈ Table.classes, ∃ p ∈ d.props, p.get = .required_c ∨ p.get = .required_o := by
  have h : Table.classes.any (fun d => d.props.any (fun p =>
      p.get == .required_c || p.get == .required_o)) = true := by decide +kernel
  obtain ⟨d, hd, h⟩ := List.any_eq_true.mp h
  obtain ⟨p, hp, h⟩ := List.any_eq_true.mp h
  exact ⟨d, hd, p, hp, by simpa using h⟩

example : Table.class_0290 ∈ Table.classes ∧ classCode Table.class_0290 = 0x029000 ∧
    ((firstDef Table.class_0290 0xB0).map (fun p => p.isWritable)) = some true := by
  refine ⟨by simp [Table.classes], by decide, by decide +kernel⟩

end Uecho
