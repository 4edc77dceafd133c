import Verif.Lemmas.Import
import Verif.Props.Object
/-!
# Importing standard properties (C19), setters/getters (C53), enumerations (C55)
-/
namespace Uecho
open Spec

/-! ## C19 -/

/-- A small database used in the examples: one class 0x0290 with four properties. -/
def exDb : Res Database := do
  let o ← Object.addAll .dev .ascending ((Object.fromCode 0x029000).setClassName "lighting")
    ([0x80, 0x8A, 0x82, 0xB0].map exProp)
  pure ⟨[], [o]⟩

/-- C19: importing a class from a database whose objects are filed correctly gives the result described
by `importTable` — existing properties keep their definition, the default data is set — whatever the
iteration order of the hash maps; the object keeps its code and gets the class name. -/
theorem C19_import_result (b : Build) (db : Database) (uuid : List UInt8) (hu : uuid.length = 16)
    (ω : HashOrder) (o : Object) (code : UInt32) (found : Bool) (o' : Object)
    (hk : ∀ std ∈ db.objects, KeysOk std)
    (h : o.addStandardProperties b db uuid ω code = .ok (found, o')) :
    match db.findObject (code &&& 0xFFFF00) with
    | none => found = false ∧ o' = o
    | some std => found = true ∧ o'.code = o.code ∧ o'.name = o.name ∧ o'.className = std.className ∧
        SameProps o'.properties (importTable uuid std.properties o.properties) := by
  cases hf : db.findObject (code &&& 0xFFFF00) with
  | none =>
    unfold Object.addStandardProperties at h
    rw [hf] at h
    simp only [Res.ok.injEq, Prod.mk.injEq] at h
    exact ⟨h.1.symm, h.2.symm⟩
  | some std =>
    obtain ⟨h1, h2, h3, h4, h5⟩ := Object.addStandardProperties_found hu hf
      (hk std (List.mem_of_find?_eq_some hf)) h
    refine ⟨h1, ?_, h4, h5, h2⟩
    unfold Object.code; rw [h3]

/-- C19: the iteration order does not matter. For any two families of hash orders, importing the same
class into the same object gives the same answer, identity and properties (all properties with all
attributes; all data except that of the property maps). -/
theorem C19_order_independent (b : Build) (db : Database) (uuid : List UInt8) (hu : uuid.length = 16)
    (ω₁ ω₂ : HashOrder) (o : Object) (code : UInt32) (f₁ f₂ : Bool) (o₁ o₂ : Object)
    (hk : ∀ std ∈ db.objects, KeysOk std)
    (h₁ : o.addStandardProperties b db uuid ω₁ code = .ok (f₁, o₁))
    (h₂ : o.addStandardProperties b db uuid ω₂ code = .ok (f₂, o₂)) :
    f₁ = f₂ ∧ o₁.code = o₂.code ∧ o₁.name = o₂.name ∧ o₁.className = o₂.className ∧
    (∀ c, isMapCode c = false → o₁.findProperty c = o₂.findProperty c) ∧
    (∀ c, (o₁.findProperty c).map attrsOf = (o₂.findProperty c).map attrsOf) := by
  have r₁ := C19_import_result b db uuid hu ω₁ o code f₁ o₁ hk h₁
  have r₂ := C19_import_result b db uuid hu ω₂ o code f₂ o₂ hk h₂
  cases hf : db.findObject (code &&& 0xFFFF00) with
  | none =>
    rw [hf] at r₁ r₂
    obtain ⟨rfl, rfl⟩ := r₁
    obtain ⟨rfl, rfl⟩ := r₂
    exact ⟨rfl, rfl, rfl, rfl, fun _ _ => rfl, fun _ => rfl⟩
  | some std =>
    rw [hf] at r₁ r₂
    obtain ⟨a1, a2, a3, a4, a5⟩ := r₁
    obtain ⟨b1, b2, b3, b4, b5⟩ := r₂
    have hs := a5.trans b5.symm
    exact ⟨a1.trans b1.symm, a2.trans b2.symm, a3.trans b3.symm, a4.trans b4.symm,
      fun c hc => (hs c).1 hc, fun c => (hs c).2⟩

/-- C19: the property maps too are the same *sets* for all iteration orders. `o` must satisfy C17's
conditions (valid property codes, filed under their codes), the imported class must not be empty, and
the database must be filed correctly. -/
theorem C19_maps_order_independent (b : Build) (db : Database) (uuid : List UInt8) (hu : uuid.length = 16)
    (ω₁ ω₂ : HashOrder) (o : Object) (code : UInt32) (f₁ f₂ : Bool) (o₁ o₂ : Object)
    (hk : ∀ std ∈ db.objects, KeysOk std ∧ CodesOk std ∧ ∃ c p, std.properties c = some p)
    (hko : KeysOk o) (hco : CodesOk o) (hfound : (db.findObject (code &&& 0xFFFF00)).isSome = true)
    (h₁ : o.addStandardProperties b db uuid ω₁ code = .ok (f₁, o₁))
    (h₂ : o.addStandardProperties b db uuid ω₂ code = .ok (f₂, o₂))
    (m : UInt8) (sel : Property → Bool)
    (hm : (m, sel) ∈ [(0x9F, Property.isReadable), (0x9E, Property.isWritable),
      ((0x9D : UInt8), Property.isAnnounceable)])
    (d₁ d₂ : List UInt8) (hd₁ : o₁.propertyData m = some d₁) (hd₂ : o₂.propertyData m = some d₂)
    (c : UInt8) : mapContains d₁ c = mapContains d₂ c := by
  have hsel : ∀ q, sel (attrsOf q) = sel q := by
    intro q
    simp only [List.mem_cons, Prod.mk.injEq, List.not_mem_nil, or_false] at hm
    rcases hm with ⟨_, rfl⟩ | ⟨_, rfl⟩ | ⟨_, rfl⟩ <;> rfl
  have hmap : isMapCode m = true := by
    simp only [List.mem_cons, Prod.mk.injEq, List.not_mem_nil, or_false] at hm
    rcases hm with ⟨rfl, _⟩ | ⟨rfl, _⟩ | ⟨rfl, _⟩ <;> rfl
  -- the maps after the import loop describe the final properties
  have key : ∀ (L : List (UInt8 × Property)) (ω : HashOrder) (x y : Object), KeysOk x → CodesOk x →
      (∀ e ∈ L, e.2.code = e.1 ∧ 0x80 ≤ e.2.code) → Object.importLoop b uuid ω x L = .ok y → L ≠ [] →
      ∀ data, y.propertyData m = some data →
      (mapContains data c = true ↔
        c ∈ accessible y sel ∧ ((accessible y sel).length ≤ 15 ∨ c < 0xC0)) := by
    intro L
    induction L with
    | nil => intro ω x y _ _ _ _ hne; exact absurd rfl hne
    | cons e rest ih =>
      obtain ⟨k, p⟩ := e
      intro ω x y hkx hcx hL hy _ data hd
      simp only [Object.importLoop] at hy
      obtain ⟨x1, h1, hy⟩ := Res.bind_eq_ok.mp hy
      obtain ⟨x2, h2, hy⟩ := Res.bind_eq_ok.mp hy
      obtain ⟨hpk, hp⟩ := hL (k, p) (by simp)
      have hk1 := Object.addProperty_keysOk h1 hkx
      have hc1 := Object.addProperty_codesOk h1 hcx hp
      obtain ⟨x2', s1, _, s3⟩ := Object.setDefault_spec b uuid hu x1 k
      rw [h2] at s1
      simp only [Res.ok.injEq] at s1
      subst s1
      have hcode : ∀ q, (imported uuid k q).code = q.code := fun q =>
        show (attrsOf (imported uuid k q)).code = (attrsOf q).code by rw [Object.imported_attrs]
      have hk2 : KeysOk x2 := by
        intro c' q hq
        rw [s3] at hq
        split at hq
        · rename_i hc'
          obtain ⟨r, hr, rfl⟩ := Option.map_eq_some_iff.mp hq
          rw [hcode, hc']; exact hk1 k r hr
        · exact hk1 c' q hq
      have hc2 : CodesOk x2 := by
        intro c' q hq
        rw [s3] at hq
        split at hq
        · obtain ⟨r, hr, rfl⟩ := Option.map_eq_some_iff.mp hq
          rw [hcode]; exact hc1 k r hr
        · exact hc1 c' q hq
      cases hnil : rest with
      | cons q qs =>
        exact ih _ x2 y hk2 hc2 (fun e he => hL e (by simp [he])) hy (by rw [hnil]; simp) data hd
      | nil =>
        rw [hnil] at hy
        simp only [Object.importLoop, Res.ok.injEq] at hy
        subst hy
        have hacc : accessible x2 sel = accessible x1 sel := by
          unfold accessible
          apply List.filter_congr
          intro c' _
          rw [s3]
          by_cases hc' : c' = k
          · subst hc'
            rw [if_pos rfl]
            cases x1.properties c' with
            | none => rfl
            | some q =>
              simp only [Option.map_some]
              rw [← hsel, Object.imported_attrs, hsel]
          · rw [if_neg hc']
        have hdat : x1.propertyData m = some data := by
          rw [← hd]
          unfold Object.propertyData Object.findProperty
          rw [s3]
          by_cases hmk : m = k
          · subst hmk
            rw [if_pos rfl]
            have : imported uuid m = id := by
              funext q
              have : defaultData uuid m = none := by
                unfold isMapCode at hmap
                simp only [Bool.or_eq_true, beq_iff_eq] at hmap
                rcases hmap with (rfl | rfl) | rfl <;> rfl
              unfold imported; rw [this]; rfl
            rw [this]; simp
          · rw [if_neg hmk]
        rw [hacc]
        exact C17_property_maps_partial b _ x x1 p hkx hcx hp h1 m sel hm data hdat c
  obtain ⟨std, hf⟩ := Option.isSome_iff_exists.mp hfound
  have hmem := List.mem_of_find?_eq_some hf
  obtain ⟨hks, hcs, c0, p0, hp0⟩ := hk std hmem
  have run : ∀ (ω : HashOrder) (f : Bool) (y : Object),
      o.addStandardProperties b db uuid ω code = .ok (f, y) → ∀ data, y.propertyData m = some data →
      (mapContains data c = true ↔
        c ∈ accessible y sel ∧ ((accessible y sel).length ≤ 15 ∨ c < 0xC0)) := by
    intro ω f y hy data hd
    unfold Object.addStandardProperties at hy
    rw [hf] at hy
    obtain ⟨y', hy1, hy2⟩ := Res.bind_eq_ok.mp hy
    simp only [Res.pure_eq, Res.ok.injEq, Prod.mk.injEq] at hy2
    obtain ⟨_, rfl⟩ := hy2
    refine key _ _ (o.setClassName std.className) y' hko hco ?_ hy1 ?_ data hd
    · intro e he
      have := Object.entries_mem he
      exact ⟨hks _ _ this, hcs _ _ this⟩
    · intro hnil
      have := Object.entries_lookup std ω.isOrder c0
      rw [hnil, hp0] at this
      simp at this
  have r₁ := run ω₁ f₁ o₁ h₁ d₁ hd₁
  have r₂ := run ω₂ f₂ o₂ h₂ d₂ hd₂
  obtain ⟨_, _, _, _, e1, e2⟩ := C19_order_independent b db uuid hu ω₁ ω₂ o code f₁ f₂ o₁ o₂
    (fun s hs => (hk s hs).1) h₁ h₂
  have hacc : accessible o₁ sel = accessible o₂ sel :=
    Object.accessible_congr (fun c => ⟨e1 c, e2 c⟩) hsel
  rw [Bool.eq_iff_iff, r₁, r₂, hacc]

/-- C19: importing never panics when all property codes involved are valid. -/
theorem C19_no_panic (b : Build) (db : Database) (uuid : List UInt8) (hu : uuid.length = 16)
    (ω : HashOrder) (o : Object) (code : UInt32)
    (h : b.overflowChecks = false ∨ (CodesOk o ∧ ∀ std ∈ db.objects, CodesOk std)) :
    ∃ r, o.addStandardProperties b db uuid ω code = .ok r :=
  Object.addStandardProperties_no_panic hu (h.imp id (·.1)) (h.imp id (·.2))

example : ∃ db, exDb = .ok db ∧ ∃ o, (Object.fromCode 0x029003).addStandardProperties .dev db
    (List.replicate 16 7) .ascending 0x029003 = .ok (true, o) ∧ o.className = "lighting" ∧
    o.propertyData 0x80 = some [0x31] ∧ o.propertyData 0x8A = some [0xFF, 0xFF, 0xFF] ∧
    o.propertyData 0xB0 = some [0x30] := by
  refine ⟨_, rfl, _, rfl, ?_, ?_, ?_, ?_⟩ <;> decide +kernel

/-! ## C53 -/

/-- C53 (all setters but the standard version): each getter returns what its setter stored, provided
the object has the property. For operating and fault status the getter returns the standard's byte
codes. The standard version is missing, see `C53_standard_version_fails`. -/
theorem C53_setters_partial (b b' : Build) (o : Object) (v : UInt8) (m : UInt32) (s : Bool)
    (id : List UInt8) :
    (o.hasProperty 0x8A = true → ∃ o', o.setManufacturerCode b m = .ok (true, o') ∧
      ∃ p w, o'.manufacturerCode = .ok p ∧ p.dataAsInt b' = .ok w ∧ w.toNat = m.toNat % 2 ^ 24) ∧
    (o.hasProperty 0x80 = true →
      (o.setOperatingStatus s).2.operatingStatus = some (if s then 0x30 else 0x31)) ∧
    (o.hasProperty 0x88 = true →
      (o.setFaultStatus s).2.faultStatus = some (if s then 0x41 else 0x42)) ∧
    (o.hasProperty 0x81 = true → (o.setInstallationLocation v).2.installationLocation = some v) ∧
    (o.hasProperty 0x82 = true → (o.setStandardVersion v).2.propertyData 0x82 = some [0, 0, v, 0]) ∧
    (o.hasProperty 0x83 = true → (o.setId id).2.idData = some id) := by
  refine ⟨fun h => ?_, fun h => ?_, fun h => ?_, fun h => ?_, fun h => ?_, fun h => ?_⟩
  · obtain ⟨o', h1, h2, h3, _⟩ := C15_set_property_int b b' o 0x8A m 3 (by omega) h
    obtain ⟨w, hw, hv⟩ := h3 (by omega)
    refine ⟨o', h1, ?_⟩
    unfold Object.propertyDataAsInt at hw
    unfold Object.manufacturerCode
    cases hp : o'.findProperty 0x8A with
    | none => rw [hp] at hw; simp at hw
    | some p =>
      rw [hp] at hw
      obtain ⟨w', hw1, hw2⟩ := Res.bind_eq_ok.mp hw
      simp only [Res.pure_eq, Res.ok.injEq, Option.some.injEq] at hw2
      subst hw2
      exact ⟨p, w', rfl, hw1, hv⟩
  · exact (C15_set_property_byte o 0x80 _ h).2.2.1
  · exact (C15_set_property_byte o 0x88 _ h).2.2.1
  · exact (C15_set_property_byte o 0x81 _ h).2.2.1
  · exact ((C15_set_property_data o 0x82 [0, 0, v, 0]).2.1 h).1
  · exact ((C15_set_property_data o 0x83 id).2.1 h).1

/-- C53 is false for the standard version: after `set_standard_version(v)` the getter returns 0 for
every `v` (the letter is stored in byte 2, the getter reads byte 0). -/
theorem C53_standard_version_fails (o : Object) (v : UInt8) (h : o.hasProperty 0x82 = true) :
    (o.setStandardVersion v).2.standardVersion = some 0 :=
  ((C15_set_property_data o 0x82 [0, 0, v, 0]).2.1 h).2.2.1 0 [0, v, 0] rfl

example : ∃ o, exObject [0x80, 0x81, 0x82, 0x83, 0x88, 0x8A] = .ok o ∧
    (∀ c ∈ [0x80, 0x81, 0x82, 0x83, 0x88, 0x8A], o.hasProperty c = true) ∧
    (o.setStandardVersion 0x50).2.standardVersion = some 0 := by
  refine ⟨_, rfl, ?_, ?_⟩ <;> decide +kernel

/-! ## C55 -/

/-- C55: `add_enum`/`find_enum` behave like a map keyed by the enum code; nothing else of the property
changes. -/
theorem C55_enum_map (p : Property) (e : PropertyEnum) (c : UInt32) :
    (p.addEnum e).findEnum c = (if c = e.code then some e else p.findEnum c) ∧
    { p.addEnum e with enums := p.enums } = p := ⟨rfl, rfl⟩

/-- Enumerations are filed under their own code. True of every property made with `add_enum`. -/
def Spec.EnumsOk (p : Property) : Prop := ∀ c e, p.enums c = some e → e.code = c

theorem C55_enumsOk_new : EnumsOk Property.new := by intro c e h; simp [Property.new] at h

theorem C55_enumsOk_add (p : Property) (e : PropertyEnum) (h : EnumsOk p) : EnumsOk (p.addEnum e) := by
  intro c e' he
  simp only [Property.addEnum] at he
  split at he
  · simp only [Option.some.injEq] at he; rw [← he]; rename_i hc; exact hc.symm
  · exact h c e' he

theorem Property.foldl_addEnum (es : List PropertyEnum) (p : Property) (c : UInt32) :
    (es.foldl Property.addEnum p).enums c =
      match es.reverse.find? (fun e => e.code == c) with
      | some e => some e
      | none => p.enums c := by
  induction es generalizing p with
  | nil => rfl
  | cons e es ih =>
    rw [List.foldl_cons, ih, List.reverse_cons, List.find?_append]
    cases es.reverse.find? (fun e => e.code == c) with
    | some x => rfl
    | none =>
      simp only [Option.none_or, Property.addEnum]
      by_cases hc : c = e.code
      · simp [hc]
      · have hc' : (e.code == c) = false := by simpa using Ne.symm hc
        simp [hc, hc']

theorem Property.foldl_addEnum_attrs (es : List PropertyEnum) (p : Property) (f : UInt32 → Option PropertyEnum) :
    { es.foldl Property.addEnum p with enums := f } = { p with enums := f } := by
  induction es generalizing p with
  | nil => rfl
  | cons e es ih => rw [List.foldl_cons, ih]; rfl

/-- C55: cloning a property preserves it completely, for every order in which the hash map of
enumerations is iterated (any list of codes that contains all present ones). -/
theorem C55_clone_any_order (p : Property) (order : List UInt32) (hp : EnumsOk p)
    (ho : ∀ c, (p.enums c).isSome = true → c ∈ order) : p.cloneInOrder order = p := by
  have henums : (p.cloneInOrder order).enums = p.enums := by
    funext c
    unfold Property.cloneInOrder
    rw [Property.foldl_addEnum]
    cases hf : (order.filterMap p.enums).reverse.find? (fun e => e.code == c) with
    | some e =>
      have h1 := List.find?_some hf
      have h2 := List.mem_of_find?_eq_some hf
      rw [List.mem_reverse, List.mem_filterMap] at h2
      obtain ⟨k, _, hk⟩ := h2
      have := hp k e hk
      simp only [beq_iff_eq] at h1
      rw [← h1, this, hk]
    | none =>
      cases hc : p.enums c with
      | none => rfl
      | some e =>
        rw [List.find?_eq_none] at hf
        have : e ∈ (order.filterMap p.enums).reverse := by
          rw [List.mem_reverse, List.mem_filterMap]
          exact ⟨c, ho c (by rw [hc]; rfl), hc⟩
        exact absurd (by simpa using hp c e hc) (hf e this)
  have h2 := Property.foldl_addEnum_attrs (order.filterMap p.enums) { p with enums := fun _ => none } p.enums
  change { p.cloneInOrder order with enums := p.enums } = p at h2
  rw [← henums] at h2
  exact h2

/-- C55: code and name read back; the description getter (finding) returns the name instead of the
description that was set. -/
theorem C55_enum_accessors_partial (e : PropertyEnum) (c : UInt32) (n d : String) :
    (e.setCode c).code = c ∧ (e.setName n).name = n ∧
    ((e.setName n).setDescription d).description = n := ⟨rfl, rfl, rfl⟩

/-- C55 is false for descriptions. -/
theorem C55_description_fails :
    ((PropertyEnum.new.setName "ON").setDescription "power on").description ≠ "power on" := by decide

example : ∃ p, p = (Property.new.addEnum ⟨0x30, "ON", ""⟩).addEnum ⟨0x31, "OFF", ""⟩ ∧
    (p.cloneInOrder [0x31, 0x30]).findEnum 0x30 = some ⟨0x30, "ON", ""⟩ ∧
    (p.cloneInOrder [0x30, 0x31]).findEnum 0x31 = some ⟨0x31, "OFF", ""⟩ := by
  refine ⟨_, rfl, ?_, ?_⟩ <;> decide

end Uecho
