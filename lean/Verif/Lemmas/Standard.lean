import Verif.Props.Database
import Verif.Props.Import
import Verif.Model.Host
/-!
# The standard objects: devices and the node profile
-/
namespace Uecho
open Spec
variable {S : Type}

/-- The class of the table an object code belongs to. -/
def Spec.classOf (code : Nat) : Option ClassDef :=
  Table.classes.find? (fun d => classCode d == code / 256 % 65536 * 256)

/-- The property table of a standard object: the properties of the super class, then those of its class
that the super class does not have; both imports set the default data of the properties they list. -/
def Spec.standardTable (uuid₁ uuid₂ : List UInt8) (code : Nat) : UInt8 → Option Property :=
  let base := importTable uuid₁ (firstDef Table.class_0000) (fun _ => none)
  match classOf code with
  | none => base
  | some d => importTable uuid₂ (firstDef d) base

theorem importTable_congr_std (uuid : List UInt8) {s t : UInt8 → Option Property} (h : SameProps s t)
    (f : UInt8 → Option Property) : SameProps (importTable uuid s f) (importTable uuid t f) := by
  intro c
  unfold importTable
  have h2 := (h c).2
  refine ⟨fun hm => by rw [(h c).1 hm], ?_⟩
  cases hs : s c with
  | none =>
    rw [hs] at h2
    cases ht : t c with
    | none => rfl
    | some q => rw [ht] at h2; simp at h2
  | some p =>
    rw [hs] at h2
    cases ht : t c with
    | none => rw [ht] at h2; simp at h2
    | some q =>
      rw [ht] at h2
      simp only [Option.map_some, Option.some.injEq] at h2
      simp only [Option.map_some, Option.some.injEq, Object.imported_attrs]
      cases f c with
      | none => exact h2
      | some r => rfl

/-- Every property of a table is filed under its code, which is at least 0x80. -/
def TableOk (f : UInt8 → Option Property) : Prop := ∀ k p, f k = some p → p.code = k ∧ 0x80 ≤ p.code

theorem tableOk_firstDef {d : ClassDef} (hd : d ∈ Table.classes) : TableOk (firstDef d) := by
  intro k p hp
  unfold firstDef at hp
  obtain ⟨q, hq, rfl⟩ := Option.map_eq_some_iff.mp hp
  have h1 := List.find?_some hq
  have h2 := List.mem_of_find?_eq_some hq
  change q.code = k ∧ 0x80 ≤ q.code
  exact ⟨by simpa using h1, C21_codes_valid d hd q h2⟩

theorem tableOk_import {uuid : List UInt8} {s f : UInt8 → Option Property} (hs : TableOk s) (hf : TableOk f) :
    TableOk (importTable uuid s f) := by
  intro k p hp
  unfold importTable at hp
  have himp : ∀ q, (imported uuid k q).code = q.code := by
    intro q
    show (attrsOf (imported uuid k q)).code = (attrsOf q).code
    rw [Object.imported_attrs]
  cases hsk : s k with
  | none => rw [hsk] at hp; exact hf k p hp
  | some q =>
    rw [hsk] at hp
    simp only [Option.some.injEq] at hp
    rw [← hp, himp]
    cases hfk : f k with
    | none => exact hs k q hsk
    | some r => exact hf k r hfk

theorem class_0000_mem : Table.class_0000 ∈ Table.classes := by simp [Table.classes]

theorem classOf_mem {code : Nat} {d : ClassDef} (h : classOf code = some d) :
    d ∈ Table.classes ∧ classCode d = code / 256 % 65536 * 256 :=
  ⟨List.mem_of_find?_eq_some h, by simpa using List.find?_some h⟩

theorem classOf_none {code : Nat} (h : classOf code = none) :
    ∀ d ∈ Table.classes, classCode d ≠ code / 256 % 65536 * 256 := by
  intro d hd
  unfold classOf at h
  rw [List.find?_eq_none] at h
  simpa using h d hd

/-- A class is found by any code of that class. -/
theorem classOf_eq {code : Nat} {d : ClassDef} (hd : d ∈ Table.classes)
    (hc : classCode d = code / 256 % 65536 * 256) : classOf code = some d := by
  cases h : classOf code with
  | none => exact absurd hc (classOf_none h d hd)
  | some e =>
    obtain ⟨h1, h2⟩ := classOf_mem h
    rw [eq_of_nodup_map C21_class_codes_distinct h1 hd (h2.trans hc.symm)]

theorem tableOk_standard (uuid₁ uuid₂ : List UInt8) (code : Nat) : TableOk (standardTable uuid₁ uuid₂ code) := by
  have hb : TableOk (importTable uuid₁ (firstDef Table.class_0000) (fun _ => none)) :=
    tableOk_import (tableOk_firstDef class_0000_mem) (fun _ _ h => by simp at h)
  unfold standardTable
  cases h : classOf code with
  | none => exact hb
  | some d => exact tableOk_import (tableOk_firstDef (classOf_mem h).1) hb

theorem tableOk_object {f : UInt8 → Option Property} (hf : TableOk f) {o : Object}
    (h : SameProps o.properties f) : KeysOk o ∧ CodesOk o := by
  constructor
  · intro k p hp
    obtain ⟨q, hq, ha, _⟩ := h.some hp
    rw [← (hf k q hq).1]
    show (attrsOf p).code = (attrsOf q).code
    rw [ha]
  · intro k p hp
    obtain ⟨q, hq, ha, _⟩ := h.some hp
    have : p.code = q.code := by show (attrsOf p).code = (attrsOf q).code; rw [ha]
    rw [this]
    exact (hf k q hq).2

theorem standardDb_ok {b : Build} {ω : HashOrder} {db : Database} (h : standardDb b ω = .ok db) :
    ∀ std ∈ db.objects, KeysOk std ∧ CodesOk std := by
  obtain ⟨db', h1, _, hl, h2⟩ := C21_builds b ω
  have : db' = db := by rw [h1] at h; simpa using h
  subst this
  intro std hs
  obtain ⟨i, hi, rfl⟩ := List.mem_iff_getElem.mp hs
  have := h2 i hi (hl ▸ hi)
  exact ⟨this.1.2.2.2.2, this.2⟩

/-- One import from the standard database. -/
theorem import_standard {b : Build} {ω₀ : HashOrder} {db : Database} (hdb : standardDb b ω₀ = .ok db)
    {uuid : List UInt8} (hu : uuid.length = 16) (ω : HashOrder) (o : Object) (ho : CodesOk o) (code : UInt32)
    {f : UInt8 → Option Property} (hf : SameProps o.properties f) :
    ∃ r, o.addStandardProperties b db uuid ω code = .ok r ∧ r.2.codes = o.codes ∧ r.2.name = o.name ∧
      SameProps r.2.properties (match classOf code.toNat with
        | none => f
        | some d => importTable uuid (firstDef d) f) := by
  have hok := standardDb_ok hdb
  obtain ⟨r, hr⟩ := Object.addStandardProperties_no_panic (code := code) (ω := ω) (db := db) (b := b) (o := o) hu
    (Or.inr ho) (Or.inr (fun std hs => (hok std hs).2))
  obtain ⟨hfind, hsound, hcompl⟩ := C21_find_object b ω₀ db hdb code
  have hmask : db.findObject (code &&& 0xFFFF00) = db.findObject code := by
    apply hfind
    rw [mask_code]; omega
  refine ⟨r, hr, ?_⟩
  cases hc : classOf code.toNat with
  | none =>
    have hnone : db.findObject (code &&& 0xFFFF00) = none := by
      rw [hmask]
      cases hx : db.findObject code with
      | none => rfl
      | some std =>
        obtain ⟨d, hd, hcc, _⟩ := hsound std hx
        exact absurd hcc (classOf_none hc d hd)
    unfold Object.addStandardProperties at hr
    rw [hnone] at hr
    simp only [Res.ok.injEq] at hr
    subst hr
    exact ⟨rfl, rfl, hf⟩
  | some d =>
    obtain ⟨hd, hcc⟩ := classOf_mem hc
    obtain ⟨std, hstd, hrep, _⟩ := hcompl d hd hcc
    rw [← hmask] at hstd
    have hmem : std ∈ db.objects := List.mem_of_find?_eq_some hstd
    obtain ⟨_, h2, h3, h4, _⟩ := Object.addStandardProperties_found hu hstd (hok std hmem).1 hr
    refine ⟨h3, h4, h2.trans ?_⟩
    exact (importTable_congr_std uuid hrep.2.2.2.1 _).trans (Object.importTable_congr uuid _ hf)

theorem code_of_codes {o o' : Object} (h : o.codes = o'.codes) : o.code = o'.code := by
  unfold Object.code; rw [h]

/-- The object of a standard device: never panics, has the low 24 bits of the code, and its properties are
those of the super class and of its class. -/
theorem deviceObject_spec {b : Build} {ω₀ : HashOrder} {db : Database} (hdb : standardDb b ω₀ = .ok db)
    {uuid₁ uuid₂ : List UInt8} (hu₁ : uuid₁.length = 16) (hu₂ : uuid₂.length = 16) (ω : HashOrder)
    (code : UInt32) :
    ∃ o, deviceObject b db uuid₁ uuid₂ ω code = .ok o ∧ o.code.toNat = code.toNat % 2 ^ 24 ∧
      SameProps o.properties (standardTable uuid₁ uuid₂ code.toNat) ∧ KeysOk o ∧ CodesOk o := by
  have h0 : SameProps (Object.new.setCode code).properties (fun _ => none) := Spec.SameProps.refl _
  have hc0 : CodesOk (Object.new.setCode code) := fun k p hp => by simp [Object.new, Object.setCode] at hp
  obtain ⟨r₁, h1, h1c, _, h1p⟩ := import_standard hdb hu₁ (ω.sub 0) _ hc0 superObjectCode h0
  have hsup : classOf superObjectCode.toNat = some Table.class_0000 :=
    classOf_eq class_0000_mem (by decide +kernel)
  rw [hsup] at h1p
  simp only [] at h1p
  have hb : TableOk (importTable uuid₁ (firstDef Table.class_0000) (fun _ => none)) :=
    tableOk_import (tableOk_firstDef class_0000_mem) (fun _ _ h => by simp at h)
  obtain ⟨r₂, h2, h2c, _, h2p⟩ := import_standard hdb hu₂ (ω.sub 1) _ (tableOk_object hb h1p).2 code h1p
  have hsame : SameProps r₂.2.properties (standardTable uuid₁ uuid₂ code.toNat) := by
    unfold standardTable
    cases hc : classOf code.toNat with
    | none => rw [hc] at h2p; exact h2p
    | some d => rw [hc] at h2p; exact h2p
  refine ⟨r₂.2, ?_, ?_, hsame, tableOk_object (tableOk_standard _ _ _) hsame⟩
  · simp only [deviceObject, h1, Res.bind_ok, h2, Res.pure_eq]
  · have hcodes : r₂.2.codes = (Object.new.setCode code).codes := h2c.trans h1c
    rw [code_of_codes hcodes]
    exact (C14_code_setCode Object.new code).1

end Uecho
