import Verif.Spec.Import
import Verif.Lemmas.Object
import Verif.Props.Basic
/-! Closed form of `add_standard_properties`. -/
namespace Uecho
open Spec
namespace Object

theorem imported_attrs (u : List UInt8) (c : UInt8) (p : Property) :
    attrsOf (imported u c p) = attrsOf p := by
  unfold imported; cases defaultData u c <;> rfl

theorem setDefault_spec (b : Build) (uuid : List UInt8) (hu : uuid.length = 16) (o : Object) (k : UInt8) :
    ∃ o', o.setDefault b uuid k = .ok o' ∧ SameId o o' ∧
      ∀ c, o'.properties c = if c = k then (o.properties k).map (imported uuid k)
        else o.properties c := by
  have key : ∀ d, defaultData uuid k = some d → ∀ c,
      (o.setPropertyData k d).2.properties c = if c = k then (o.properties k).map (imported uuid k)
        else o.properties c := by
    intro d hd c
    rw [setPropertyData_props]
    have : (imported uuid k) = fun p => p.setData d := by
      funext p; unfold imported; rw [hd]; rfl
    rw [this]
  unfold setDefault
  by_cases h1 : k = 0x8A
  · subst h1
    have h3 := C11_fromU32 b 0xFFFFFF (List.replicate 3 0) (by simp)
    have h4 : be (List.replicate 3 (0 : UInt8)).length (0xFFFFFF : UInt32).toNat = [0xFF, 0xFF, 0xFF] := by
      decide
    rw [h4] at h3
    refine ⟨(o.setPropertyData 0x8A [0xFF, 0xFF, 0xFF]).2, ?_, setPropertyData_sameId _ _ _,
      key _ rfl⟩
    rw [if_pos rfl]
    simp only [setManufacturerCode, setPropertyInt, h3, Res.bind_ok, Res.pure_eq]
  rw [if_neg h1]
  by_cases h2 : k = 0x80
  · subst h2
    exact ⟨_, if_pos rfl, setPropertyData_sameId _ _ _, key _ rfl⟩
  rw [if_neg h2]
  by_cases h3 : k = 0x81
  · subst h3
    exact ⟨_, if_pos rfl, setPropertyData_sameId _ _ _, key _ rfl⟩
  rw [if_neg h3]
  by_cases h4 : k = 0x88
  · subst h4
    exact ⟨_, if_pos rfl, setPropertyData_sameId _ _ _, key _ rfl⟩
  rw [if_neg h4]
  by_cases h5 : k = 0x82
  · subst h5
    exact ⟨_, if_pos rfl, setPropertyData_sameId _ _ _, key _ rfl⟩
  rw [if_neg h5]
  by_cases h6 : k = 0x83
  · subst h6
    have h7 := C13_oid_layout b 0xFFFFFF uuid hu
    refine ⟨(o.setPropertyData 0x83 ([0xFE] ++ be 3 (0xFFFFFF : UInt32).toNat ++ (uuid.drop 3).reverse)).2,
      ?_, setPropertyData_sameId _ _ _, key _ ?_⟩
    · rw [if_pos rfl, h7]; rfl
    · have : be 3 (0xFFFFFF : UInt32).toNat = [0xFF, 0xFF, 0xFF] := by decide
      rw [this]; rfl
  rw [if_neg h6]
  refine ⟨o, rfl, SameId.refl _, fun c => ?_⟩
  have : imported uuid k = id := by
    funext p; simp [imported, defaultData, h1, h2, h3, h4, h5, h6]
  rw [this]
  split
  · rename_i h; rw [h]; simp
  · rfl

/-- The table after the import of the listed (key, property) pairs. -/
def importList (uuid : List UInt8) (L : List (UInt8 × Property)) (f : UInt8 → Option Property) :
    UInt8 → Option Property := importTable uuid (fun c => L.lookup c) f

theorem importTable_congr (uuid : List UInt8) (std : UInt8 → Option Property)
    {f g : UInt8 → Option Property} (h : SameProps f g) :
    SameProps (importTable uuid std f) (importTable uuid std g) := by
  intro c
  unfold importTable
  cases hs : std c with
  | none => exact h c
  | some p =>
    refine ⟨fun hm => by rw [(h c).1 hm], ?_⟩
    have h2 := (h c).2
    simp only [Option.map_some, imported_attrs, Option.some.injEq]
    cases h3 : f c <;> cases h4 : g c <;> rw [h3, h4] at h2 <;> simp at h2 ⊢
    exact h2

theorem importLoop_same {b : Build} {uuid : List UInt8} (hu : uuid.length = 16) {ω : HashOrder}
    {o o' : Object} {L : List (UInt8 × Property)} (hk : ∀ e ∈ L, e.2.code = e.1)
    (hn : (L.map Prod.fst).Nodup) (h : importLoop b uuid ω o L = .ok o') :
    SameProps o'.properties (importList uuid L o.properties) ∧ SameId o o' := by
  induction L generalizing o ω with
  | nil =>
    simp only [importLoop, Res.ok.injEq] at h
    subst h; exact ⟨SameProps.refl _, SameId.refl _⟩
  | cons e rest ih =>
    obtain ⟨k, p⟩ := e
    simp only [importLoop] at h
    obtain ⟨o1, h1, h⟩ := Res.bind_eq_ok.mp h
    obtain ⟨o2, h2, h⟩ := Res.bind_eq_ok.mp h
    rw [List.map_cons, List.nodup_cons] at hn
    obtain ⟨i1, i2⟩ := ih (fun e he => hk e (by simp [he])) hn.2 h
    obtain ⟨a1, a2⟩ := addProperty_same h1
    obtain ⟨o2', s1, s2, s3⟩ := setDefault_spec b uuid hu o1 k
    rw [h2] at s1
    simp only [Res.ok.injEq] at s1
    subst s1
    refine ⟨i1.trans ?_, (a2.trans s2).trans i2⟩
    have hpk : p.code = k := hk (k, p) (by simp)
    -- one step in closed form
    have hstep : SameProps o2.properties (fun c => if c = k then
        some (imported uuid k ((o.properties k).getD p)) else o.properties c) := by
      intro c
      rw [s3]
      by_cases hc : c = k
      · subst hc
        simp only [if_true]
        have := a1 c
        rw [orInsert_props, if_pos hpk.symm] at this
        obtain ⟨t1, t2⟩ := this
        refine ⟨fun hm => by rw [t1 hm]; rfl, ?_⟩
        cases hx : o1.properties c with
        | none => rw [hx] at t2; simp at t2
        | some q =>
          rw [hx] at t2
          simp only [Option.map_some, Option.some.injEq, imported_attrs] at t2 ⊢
          exact t2
      · simp only [hc, if_false]
        have := a1 c
        rw [orInsert_props, if_neg (by rw [hpk]; exact hc)] at this
        exact this
    refine (importTable_congr uuid _ hstep).trans ?_
    have : importTable uuid (fun c => rest.lookup c) (fun c => if c = k then
        some (imported uuid k ((o.properties k).getD p)) else o.properties c)
        = importList uuid ((k, p) :: rest) o.properties := by
      funext c
      unfold importList importTable
      simp only []
      rw [List.lookup_cons]
      by_cases hc : c = k
      · subst hc
        have hnone : rest.lookup c = none := by
          rw [List.lookup_eq_none_iff]
          intro e he
          have : e.1 ≠ c := fun hh => hn.1 (List.mem_map.mpr ⟨e, he, hh⟩)
          simpa [bne_iff_ne] using Ne.symm this
        simp [hnone]
      · have hc' : (c == k) = false := by simpa using hc
        simp only [hc', hc, if_false]
    rw [this]; exact SameProps.refl _

theorem importLoop_no_panic {b : Build} {uuid : List UInt8} (hu : uuid.length = 16) {ω : HashOrder}
    {o : Object} {L : List (UInt8 × Property)} (ho : MapsOk b o)
    (hL : b.overflowChecks = false ∨ ∀ e ∈ L, 0x80 ≤ e.2.code) :
    ∃ o', importLoop b uuid ω o L = .ok o' := by
  induction L generalizing o ω with
  | nil => exact ⟨o, rfl⟩
  | cons e rest ih =>
    obtain ⟨k, p⟩ := e
    obtain ⟨o1, h1⟩ := addProperty_no_panic (order := (ω.sub 0).here) (HashOrder.isOrder _) ho
      (hL.imp id (fun h => h (k, p) (by simp)))
    obtain ⟨o2, h2, _, h3⟩ := setDefault_spec b uuid hu o1 k
    simp only [importLoop, h1, h2, Res.bind_ok]
    apply ih
    · rcases ho with ho | ho
      · exact Or.inl ho
      · rcases hL with hL | hL
        · exact Or.inl hL
        · refine Or.inr fun c q hq => ?_
          have hc1 := addProperty_codesOk h1 ho (hL (k, p) (by simp))
          rw [h3] at hq
          split at hq
          · obtain ⟨r, hr, rfl⟩ := Option.map_eq_some_iff.mp hq
            have : (imported uuid k r).code = r.code :=
              show (attrsOf (imported uuid k r)).code = (attrsOf r).code by rw [imported_attrs]
            rw [this]; exact hc1 k r hr
          · exact hc1 c q hq
    · exact hL.imp id (fun h e he => h e (by simp [he]))

theorem entries_lookup (std : Object) {order : List UInt8} (ho : IsOrder order) (c : UInt8) :
    (std.entries order).lookup c = std.properties c := by
  unfold entries
  have hc : c ∈ order := ho.mem c
  clear ho
  induction order with
  | nil => simp at hc
  | cons k ks ih =>
    by_cases hkc : k = c
    · subst hkc
      cases hp : std.properties k with
      | none =>
        rw [List.filterMap_cons_none (by rw [hp]; rfl), List.lookup_eq_none_iff]
        intro e he
        obtain ⟨k', _, hk'⟩ := List.mem_filterMap.mp he
        obtain ⟨q, hq, rfl⟩ := Option.map_eq_some_iff.mp hk'
        have : k ≠ k' := by rintro rfl; rw [hp] at hq; simp at hq
        simpa using this
      | some p =>
        rw [List.filterMap_cons_some (by rw [hp]; rfl), List.lookup_cons]; simp
    · have ih := ih ((List.mem_cons.mp hc).resolve_left (Ne.symm hkc))
      cases hp : std.properties k with
      | none => rw [List.filterMap_cons_none (by rw [hp]; rfl)]; exact ih
      | some p =>
        rw [List.filterMap_cons_some (by rw [hp]; rfl), List.lookup_cons]
        have : (c == k) = false := by simpa using Ne.symm hkc
        simp only [this]; exact ih

theorem entries_nodup (std : Object) {order : List UInt8} (ho : IsOrder order) :
    ((std.entries order).map Prod.fst).Nodup := by
  unfold entries
  have hn := ho.nodup
  clear ho
  induction order with
  | nil => simp
  | cons k ks ih =>
    rw [List.nodup_cons] at hn
    cases hp : std.properties k with
    | none => rw [List.filterMap_cons_none (by rw [hp]; rfl)]; exact ih hn.2
    | some p =>
      rw [List.filterMap_cons_some (by rw [hp]; rfl), List.map_cons, List.nodup_cons]
      refine ⟨?_, ih hn.2⟩
      intro hm
      obtain ⟨e, he, hek⟩ := List.mem_map.mp hm
      obtain ⟨k', hk', hq⟩ := List.mem_filterMap.mp he
      obtain ⟨q, _, rfl⟩ := Option.map_eq_some_iff.mp hq
      simp only at hek
      subst hek
      exact hn.1 hk'

theorem entries_mem {std : Object} {order : List UInt8} {e : UInt8 × Property}
    (h : e ∈ std.entries order) : std.properties e.1 = some e.2 := by
  obtain ⟨k, _, hq⟩ := List.mem_filterMap.mp h
  obtain ⟨q, hq', rfl⟩ := Option.map_eq_some_iff.mp hq
  exact hq'

/-- Closed form of `add_standard_properties` when the class is in the database. -/
theorem addStandardProperties_found {b : Build} {db : Database} {uuid : List UInt8}
    (hu : uuid.length = 16) {ω : HashOrder} {o : Object} {code : UInt32} {std : Object} {r : Bool × Object}
    (hf : db.findObject (code &&& 0xFFFF00) = some std) (hk : KeysOk std)
    (h : o.addStandardProperties b db uuid ω code = .ok r) :
    r.1 = true ∧ SameProps r.2.properties (importTable uuid std.properties o.properties) ∧
      r.2.codes = o.codes ∧ r.2.name = o.name ∧ r.2.className = std.className := by
  unfold addStandardProperties at h
  rw [hf] at h
  obtain ⟨o', h1, h2⟩ := Res.bind_eq_ok.mp h
  simp only [Res.pure_eq, Res.ok.injEq] at h2
  subst h2
  obtain ⟨i1, i2⟩ := importLoop_same hu (fun e he => hk e.1 e.2 (entries_mem he))
    (entries_nodup std ω.isOrder) h1
  refine ⟨rfl, ?_, i2.1, i2.2.1, i2.2.2⟩
  unfold importList at i1
  have : (fun c => (std.entries ω.here).lookup c) = std.properties :=
    funext fun c => entries_lookup std ω.isOrder c
  rw [this] at i1
  exact i1

theorem addStandardProperties_no_panic {b : Build} {db : Database} {uuid : List UInt8}
    (hu : uuid.length = 16) {ω : HashOrder} {o : Object} {code : UInt32} (ho : MapsOk b o)
    (hs : b.overflowChecks = false ∨ ∀ std ∈ db.objects, CodesOk std) :
    ∃ r, o.addStandardProperties b db uuid ω code = .ok r := by
  unfold addStandardProperties
  cases hf : db.findObject (code &&& 0xFFFF00) with
  | none => exact ⟨_, rfl⟩
  | some std =>
    have hmem : std ∈ db.objects := List.mem_of_find?_eq_some hf
    obtain ⟨o', h'⟩ := importLoop_no_panic (ω := ω.sub 0) (L := std.entries ω.here) hu
      (show MapsOk b (o.setClassName std.className) from ho)
      (hs.imp id (fun h e he => h std hmem e.1 e.2 (entries_mem he)))
    simp only [h', Res.bind_ok, Res.pure_eq]
    exact ⟨_, rfl⟩

end Object
end Uecho
