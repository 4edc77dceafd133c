import Verif.Props.Property
import Verif.Props.Device
import Verif.Spec.PropertyType
/-!
# C88: the data types and enumerations of the standard properties
-/
namespace Uecho
open Spec

theorem fromString_find (s : String) :
    PropertyType.fromString s = ((typeWords.find? (fun w => w.1 == s)).map (·.2)).getD .Unknown := by
  unfold PropertyType.fromString typeWords
  split <;> try rfl
  rename_i h1 h2 h3 h4 h5 h6 h7 h8 h9 h10 h11 h12
  have e : ∀ t : String, (s = t → False) → (t == s) = false := by
    intro t ht
    rw [beq_eq_false_iff_ne]
    exact fun h => ht h.symm
  simp only [List.find?_cons, e _ h1, e _ h2, e _ h3, e _ h4, e _ h5, e _ h6, e _ h7, e _ h8, e _ h9, e _ h10, e _ h11,
    e _ h12, List.find?_nil, Option.map_none, Option.getD_none]

/-- C88: a type word is converted to the type it denotes, and every other string to `Unknown`; a type other than
`Unknown` has exactly one word. -/
theorem C88_types (s : String) (t : PropertyType) :
    (PropertyType.fromString s = t ↔ (s, t) ∈ typeWords ∨ (t = .Unknown ∧ ∀ u, (s, u) ∉ typeWords)) ∧
    (t ≠ .Unknown → ∃ w, (∀ s', PropertyType.fromString s' = t ↔ s' = w)) := by
  have key : ∀ s t, PropertyType.fromString s = t ↔ (s, t) ∈ typeWords ∨ (t = .Unknown ∧ ∀ u, (s, u) ∉ typeWords) := by
    intro s t
    rw [fromString_find]
    cases hf : typeWords.find? (fun w => w.1 == s) with
    | none =>
      have hn : ∀ u, (s, u) ∉ typeWords := by
        intro u hu
        have := List.find?_eq_none.mp hf _ hu
        simp at this
      simp only [Option.map_none, Option.getD_none]
      constructor
      · rintro rfl; exact Or.inr ⟨rfl, hn⟩
      · rintro (h | ⟨h, _⟩)
        · exact absurd h (hn t)
        · exact h.symm
    | some w =>
      have hm := List.mem_of_find?_eq_some hf
      have hs : w.1 = s := by simpa using List.find?_some hf
      subst hs
      simp only [Option.map_some, Option.getD_some]
      constructor
      · rintro rfl; exact Or.inl hm
      · rintro (h | ⟨_, h⟩)
        · have hu : ∀ x ∈ typeWords, ∀ y ∈ typeWords, x.1 = y.1 → x.2 = y.2 := by decide +kernel
          exact hu _ hm _ h rfl
        · exact absurd hm (h w.2)
  refine ⟨key s t, fun ht => ?_⟩
  have hex : ∃ w, (w, t) ∈ typeWords := by
    have hall : ∀ t, t = .Unknown ∨ t ∈ typeWords.map (·.2) := by
      intro t
      cases t <;> decide
    obtain ⟨w, hw, rfl⟩ := List.mem_map.mp ((hall t).resolve_left ht)
    exact ⟨w.1, hw⟩
  obtain ⟨w, hw⟩ := hex
  refine ⟨w, fun s' => ?_⟩
  rw [key]
  constructor
  · rintro (h | ⟨h, _⟩)
    · have hu : ∀ x ∈ typeWords, ∀ y ∈ typeWords, x.2 = y.2 → x.1 = y.1 := by decide +kernel
      exact hu _ h _ hw rfl
    · exact absurd h ht
  · rintro rfl; exact Or.inl hw

/-- The check of the table behind C88. -/
def PropDef.typed (p : PropDef) : Bool :=
  (p.typ == "" || decide (PropertyType.fromString p.typ ≠ .Unknown)) &&
  (p.enums.isEmpty || (p.typ == "state" && decide (p.size ≤ 4))) &&
  p.enums.all (fun e => decide (e.code.toNat < 256 ^ p.size))

theorem table_typed : ∀ d ∈ Table.classes, ∀ p ∈ d.props, p.typed = true := by
  have h : Table.classes.all (fun d => d.props.all (fun p => p.typed)) = true := by decide +kernel
  intro d hd p hp
  exact List.all_eq_true.mp (List.all_eq_true.mp h d hd) p hp

/-- What C88 says of one property. -/
theorem declared_typed (b : Build) (d : ClassDef) (hd : d ∈ Table.classes) (pd : PropDef) (hp : pd ∈ d.props) (p : Property)
    (h : attrsOf p = attrsOf (declared pd)) :
    (p.typ = "" ∨ PropertyType.fromString p.typ ≠ .Unknown) ∧
    (∀ k e, p.findEnum k = some e → PropertyType.fromString p.typ = .State ∧ UsableEnum b p k e) := by
  have ht := table_typed d hd pd hp
  unfold PropDef.typed at ht
  simp only [Bool.and_eq_true, Bool.or_eq_true, beq_iff_eq, decide_eq_true_eq, List.all_eq_true,
    List.isEmpty_iff] at ht
  obtain ⟨⟨h1, h2⟩, h3⟩ := ht
  have e1 : p.typ = pd.typ := congrArg Property.typ h
  have e2 : p.capacity = pd.size := congrArg Property.capacity h
  have e3 : (attrsOf p).enums = (attrsOf (declared pd)).enums := by rw [h]
  replace e3 : p.enums = (declared pd).enums := e3
  refine ⟨by rw [e1]; exact h1, fun k e hk => ?_⟩
  unfold Property.findEnum at hk
  have hk' := hk
  rw [e3] at hk
  have hm : e ∈ pd.enums := by simpa using List.mem_of_find?_eq_some hk
  have hc : e.code = k := by simpa using List.find?_some hk
  rcases h2 with h2 | ⟨h2, h4⟩
  · rw [h2] at hm; simp at hm
  have hlt := h3 e hm
  rw [hc] at hlt
  refine ⟨by rw [e1, h2]; rfl, hc, ?_⟩
  have hl : (List.replicate p.capacity (0 : UInt8)).length ≤ 4 := by rw [List.length_replicate, e2]; exact h4
  refine ⟨p.setData (be p.capacity k.toNat), ?_, ?_, ?_, hk'⟩
  · unfold Property.setIntData
    rw [C11_fromU32 b k _ hl]
    simp
  · show (be p.capacity k.toNat).length = _
    rw [be_length]
  · obtain ⟨v, hv, hv'⟩ := (C60_readers b (p.setData (be p.capacity k.toNat)) []).2.2.1
      (by show (be p.capacity k.toNat).length ≤ 4; rw [be_length, e2]; exact h4)
    rw [hv]
    congr 1
    apply UInt32.toNat.inj
    rw [hv']
    show beVal (be p.capacity k.toNat) = _
    rw [beVal_be, e2]
    exact Nat.mod_eq_of_lt hlt

theorem firstDef_typed (b : Build) (d : ClassDef) (hd : d ∈ Table.classes) (c : UInt8) (p : Property)
    (h : (firstDef d c).map attrsOf = some (attrsOf p)) :
    (p.typ = "" ∨ PropertyType.fromString p.typ ≠ .Unknown) ∧
    (∀ k e, p.findEnum k = some e → PropertyType.fromString p.typ = .State ∧ UsableEnum b p k e) := by
  unfold firstDef at h
  rw [Option.map_map, Option.map_eq_some_iff] at h
  obtain ⟨pd, hpd, he⟩ := h
  exact declared_typed b d hd pd (List.mem_of_find?_eq_some hpd) p he.symm

/-- C88 for the database (partial): every property of every object that can be looked up has a known type or none at
all, only properties of type `State` have enumerated values, and every enumerated value can be stored in the property
with the size the property declares and is recognised when read back. Missing: a known type for every property, see
`C88_fails_untyped`. -/
theorem C88_database_partial (b : Build) (ω : HashOrder) (db : Database) (hdb : standardDb b ω = .ok db) (code : UInt32)
    (o : Object) (ho : db.findObject code = some o) (c : UInt8) (p : Property) (hp : o.findProperty c = some p) :
    (p.typ = "" ∨ PropertyType.fromString p.typ ≠ .Unknown) ∧
    (∀ k e, p.findEnum k = some e → PropertyType.fromString p.typ = .State ∧ UsableEnum b p k e) := by
  obtain ⟨d, hd, _, hr, _⟩ := (C21_find_object b ω db hdb code).2.1 o ho
  refine firstDef_typed b d hd c p ?_
  have := (hr.2.2.2.1 c).2
  rw [← this]
  show (o.findProperty c).map attrsOf = _
  rw [hp]; rfl

/-- C88 for devices (partial, as `C88_database_partial`): the same is true of every property of every new device. -/
theorem C88_device_partial (b : Build) (ω₀ : HashOrder) (db : Database) (hdb : standardDb b ω₀ = .ok db)
    (uuid : Nat → List UInt8) (hu : ∀ i, (uuid i).length = 16) (ω : HashOrder) (code : UInt32) {S : Type} (app : S) :
    ∃ n np o, Device.new b db uuid ω code app = .ok (⟨code⟩, n) ∧ n.objects = [np, o] ∧
      ∀ c p, o.findProperty c = some p →
        (p.typ = "" ∨ PropertyType.fromString p.typ ≠ .Unknown) ∧
        (∀ k e, p.findEnum k = some e → PropertyType.fromString p.typ = .State ∧ UsableEnum b p k e) := by
  obtain ⟨n, np, o, h1, h2, _, _, h5, _⟩ := C20_new_device b ω₀ db hdb uuid hu ω code app
  refine ⟨n, np, o, h1, h2, fun c p hp => ?_⟩
  have h := h5 c
  rw [hp] at h
  simp only [Option.map_some] at h
  unfold standardDef at h
  cases hf : firstDef Table.class_0000 c with
  | some q =>
    rw [hf] at h
    refine firstDef_typed b Table.class_0000 (by simp [Table.classes]) c p ?_
    rw [hf]; exact h.symm
  | none =>
    rw [hf] at h
    cases hc : classOf code.toNat with
    | none => rw [hc] at h; simp at h
    | some d =>
      rw [hc] at h
      refine firstDef_typed b d ?_ c p h.symm
      unfold classOf at hc
      exact List.mem_of_find?_eq_some hc

/-- C88 is false for some properties: in every build of the database, the power distribution board (class 0x0287)
declares no type for its required property 0xC0 (cumulative amount of electric energy), whose type is thus
`Unknown`. -/
theorem C88_fails_untyped (b : Build) (ω : HashOrder) : ∃ db o p, standardDb b ω = .ok db ∧
    db.findObject 0x028701 = some o ∧ o.findProperty 0xC0 = some p ∧ p.typ = "" ∧ p.isReadRequired = true ∧
    PropertyType.fromString p.typ = .Unknown := by
  obtain ⟨db, hdb, _⟩ := C21_builds b ω
  obtain ⟨o, ho, hr, _⟩ := (C21_find_object b ω db hdb 0x028701).2.2 Table.class_0287 (by simp [Table.classes])
    (by decide +kernel)
  have h := (hr.2.2.2.1 0xC0).1 (by decide)
  have hd : (firstDef Table.class_0287 0xC0).map (fun p => (p.typ, p.isReadRequired)) = some ("", true) := by
    decide +kernel
  rw [← h] at hd
  obtain ⟨p, hp, he⟩ := Option.map_eq_some_iff.mp hd
  simp only [Prod.mk.injEq] at he
  exact ⟨db, o, p, hdb, ho, hp, he.1, he.2, by rw [he.1]; rfl⟩

/-- Non-vacuity: the operation status of every new device is such a property, with the value 0x30 described. -/
example (b : Build) (ω : HashOrder) : ∃ db o p e, standardDb b ω = .ok db ∧ db.findObject 0 = some o ∧
    o.findProperty 0x80 = some p ∧ p.findEnum 0x30 = some e ∧ e.name = "true" ∧ UsableEnum b p 0x30 e := by
  obtain ⟨db, hdb, _⟩ := C21_builds b ω
  obtain ⟨o, ho, hr, _⟩ := (C21_find_object b ω db hdb 0).2.2 Table.class_0000 (by simp [Table.classes])
    (by decide +kernel)
  have h := (hr.2.2.2.1 0x80).1 (by decide)
  have hd : ((firstDef Table.class_0000 0x80).bind (fun p => p.findEnum 0x30)).map (fun e => e.name) = some "true" := by
    decide +kernel
  rw [← h] at hd
  obtain ⟨e, he, hn⟩ := Option.map_eq_some_iff.mp hd
  obtain ⟨p, hp, he⟩ := Option.bind_eq_some_iff.mp he
  exact ⟨db, o, p, e, hdb, ho, hp, he, hn, ((C88_database_partial b ω db hdb 0 o ho 0x80 p hp).2 0x30 e he).2⟩

end Uecho
