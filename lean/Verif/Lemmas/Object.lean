import Verif.Spec.Object
import Verif.Lemmas.Codec
/-! Helper lemmas about objects. -/
namespace Uecho
open Spec

theorem mem_allCodes (c : UInt8) : c ∈ allCodes := by
  unfold allCodes
  rw [List.mem_map]
  exact ⟨c.toNat, List.mem_range.mpr c.toNat_lt, by simp⟩

theorem allCodes_nodup : allCodes.Nodup := by
  unfold allCodes
  rw [List.nodup_iff_pairwise_ne, List.pairwise_map]
  refine List.Pairwise.imp_of_mem ?_ (List.nodup_iff_pairwise_ne.mp List.nodup_range)
  intro a b ha hb hne h
  have ha := List.mem_range.mp ha
  have hb := List.mem_range.mp hb
  have := congrArg UInt8.toNat h
  rw [toNat_ofNat_le (by omega), toNat_ofNat_le (by omega)] at this
  exact hne this

/-- An iteration order: a permutation of all codes. -/
def IsOrder (l : List UInt8) : Prop := l.Perm allCodes

theorem HashOrder.isOrder (ω : HashOrder) : IsOrder ω.here := ω.perm []

theorem IsOrder.mem {l : List UInt8} (h : IsOrder l) (c : UInt8) : c ∈ l :=
  h.mem_iff.mpr (mem_allCodes c)

theorem IsOrder.nodup {l : List UInt8} (h : IsOrder l) : l.Nodup := h.nodup_iff.mpr allCodes_nodup

/-! ## SameProps is an equivalence, and a congruence -/

theorem Spec.SameProps.refl (f : UInt8 → Option Property) : SameProps f f := fun _ => ⟨fun _ => rfl, rfl⟩
theorem Spec.SameProps.symm {f g : UInt8 → Option Property} (h : SameProps f g) : SameProps g f :=
  fun c => ⟨fun hc => ((h c).1 hc).symm, (h c).2.symm⟩
theorem Spec.SameProps.trans {f g k : UInt8 → Option Property} (h : SameProps f g) (h' : SameProps g k) :
    SameProps f k := fun c => ⟨fun hc => ((h c).1 hc).trans ((h' c).1 hc), (h c).2.trans (h' c).2⟩

theorem Spec.SameProps.isSome {f g : UInt8 → Option Property} (h : SameProps f g) (c : UInt8) :
    (f c).isSome = (g c).isSome := by
  have := congrArg Option.isSome (h c).2
  simpa using this

/-- Attributes agree under `SameProps`. -/
theorem Spec.SameProps.some {f g : UInt8 → Option Property} (h : SameProps f g) {c : UInt8} {p : Property}
    (hp : f c = some p) : ∃ q, g c = Option.some q ∧ attrsOf q = attrsOf p ∧
      (isMapCode c = false → q = p) := by
  have h2 := (h c).2
  rw [hp] at h2
  cases hq : g c with
  | none => rw [hq] at h2; simp at h2
  | some q =>
    rw [hq] at h2
    simp only [Option.map_some, Option.some.injEq] at h2
    refine ⟨q, rfl, h2.symm, fun hc => ?_⟩
    have := (h c).1 hc
    rw [hp, hq] at this
    simpa using this.symm

theorem attrsOf_setData (p : Property) (d : List UInt8) : attrsOf (p.setData d) = attrsOf p := rfl

namespace Object

/-! ## setPropertyData -/

theorem setPropertyData_fst (o : Object) (c : UInt8) (d : List UInt8) :
    (o.setPropertyData c d).1 = (o.properties c).isSome := by
  unfold setPropertyData; cases o.properties c <;> rfl

theorem setPropertyData_props (o : Object) (c : UInt8) (d : List UInt8) (c' : UInt8) :
    (o.setPropertyData c d).2.properties c' =
      if c' = c then (o.properties c).map (fun p => p.setData d) else o.properties c' := by
  unfold setPropertyData
  cases h : o.properties c with
  | none =>
    simp only [Option.map_none]
    split
    · rename_i hc; rw [hc, h]
    · rfl
  | some p => simp only [Option.map_some]

theorem setPropertyData_codes (o : Object) (c : UInt8) (d : List UInt8) :
    (o.setPropertyData c d).2.codes = o.codes ∧ (o.setPropertyData c d).2.name = o.name ∧
    (o.setPropertyData c d).2.className = o.className := by
  unfold setPropertyData; cases o.properties c <;> exact ⟨rfl, rfl, rfl⟩

/-- Two objects with the same identity (codes and names). -/
def SameId (o o' : Object) : Prop :=
  o'.codes = o.codes ∧ o'.name = o.name ∧ o'.className = o.className

theorem SameId.refl (o : Object) : SameId o o := ⟨rfl, rfl, rfl⟩
theorem SameId.trans {a b c : Object} (h : SameId a b) (h' : SameId b c) : SameId a c :=
  ⟨h'.1.trans h.1, h'.2.1.trans h.2.1, h'.2.2.trans h.2.2⟩
theorem SameId.symm {a b : Object} (h : SameId a b) : SameId b a :=
  ⟨h.1.symm, h.2.1.symm, h.2.2.symm⟩
theorem setPropertyData_sameId (o : Object) (c : UInt8) (d : List UInt8) :
    SameId o (o.setPropertyData c d).2 := setPropertyData_codes o c d

/-- Writing the same data into equivalent objects. -/
theorem setPropertyData_congr {o o' : Object} (h : SameProps o.properties o'.properties)
    (c : UInt8) (d : List UInt8) :
    SameProps (o.setPropertyData c d).2.properties (o'.setPropertyData c d).2.properties := by
  intro c'
  rw [setPropertyData_props, setPropertyData_props]
  by_cases hc : c' = c
  · subst hc
    rw [if_pos rfl, if_pos rfl]
    refine ⟨fun hm => by rw [(h c').1 hm], ?_⟩
    rw [Option.map_map, Option.map_map]
    exact (h c').2
  · rw [if_neg hc, if_neg hc]; exact h c'

/-- Writing a property map changes nothing up to `SameProps`. -/
theorem setPropertyData_map (o : Object) (c : UInt8) (d : List UInt8) (hc : isMapCode c = true) :
    SameProps (o.setPropertyData c d).2.properties o.properties := by
  intro c'
  rw [setPropertyData_props]
  by_cases h : c' = c
  · subst h
    rw [if_pos rfl]
    refine ⟨fun hm => by rw [hc] at hm; simp at hm, ?_⟩
    rw [Option.map_map]; rfl
  · rw [if_neg h]; exact ⟨fun _ => rfl, rfl⟩

/-! ## orInsert -/

theorem orInsert_congr {o o' : Object} (h : SameProps o.properties o'.properties) (p : Property) :
    SameProps (o.orInsert p).properties (o'.orInsert p).properties := by
  intro c
  unfold orInsert
  by_cases hc : c = p.code
  · simp only [hc, if_true]
    refine ⟨fun hm => by rw [(h p.code).1 hm], ?_⟩
    have h2 := (h p.code).2
    cases h3 : o.properties p.code <;> cases h4 : o'.properties p.code <;> rw [h3, h4] at h2 <;>
      simp at h2 ⊢
    exact h2
  · simp only [hc, if_false]; exact h c

/-! ## updatePropertyMaps -/

theorem updatePropertyMaps_ok {b : Build} {order : List UInt8} {o o' : Object}
    (h : updatePropertyMaps b order o = .ok o') :
    ∃ g s a, toPropertyMapBytes b (o.mapCodes order Property.isReadable) = .ok g ∧
      toPropertyMapBytes b (o.mapCodes order Property.isWritable) = .ok s ∧
      toPropertyMapBytes b (o.mapCodes order Property.isAnnounceable) = .ok a ∧
      o' = ((((o.setPropertyData 0x9F g).2).setPropertyData 0x9E s).2.setPropertyData 0x9D a).2 := by
  unfold updatePropertyMaps at h
  obtain ⟨g, hg, h⟩ := Res.bind_eq_ok.mp h
  obtain ⟨s, hs, h⟩ := Res.bind_eq_ok.mp h
  obtain ⟨a, ha, h⟩ := Res.bind_eq_ok.mp h
  simp only [Res.pure_eq, Res.ok.injEq] at h
  exact ⟨g, s, a, hg, hs, ha, h.symm⟩

theorem updatePropertyMaps_same {b : Build} {order : List UInt8} {o o' : Object}
    (h : updatePropertyMaps b order o = .ok o') :
    SameProps o'.properties o.properties ∧ SameId o o' := by
  obtain ⟨g, s, a, _, _, _, rfl⟩ := updatePropertyMaps_ok h
  constructor
  · exact ((setPropertyData_map _ _ _ rfl).trans (setPropertyData_map _ _ _ rfl)).trans
      (setPropertyData_map _ _ _ rfl)
  · exact ((setPropertyData_sameId _ _ _).trans (setPropertyData_sameId _ _ _)).trans
      (setPropertyData_sameId _ _ _)

theorem addProperty_same {b : Build} {order : List UInt8} {o o' : Object} {p : Property}
    (h : addProperty b order o p = .ok o') :
    SameProps o'.properties (o.orInsert p).properties ∧ SameId o o' :=
  updatePropertyMaps_same h

theorem addAll_same {b : Build} {ω : HashOrder} {o o' : Object} {ps : List Property}
    (h : addAll b ω o ps = .ok o') :
    SameProps o'.properties (ps.foldl orInsert o).properties ∧ SameId o o' := by
  induction ps generalizing o ω with
  | nil => simp only [addAll, Res.ok.injEq] at h; subst h; exact ⟨SameProps.refl _, SameId.refl _⟩
  | cons p ps ih =>
    simp only [addAll] at h
    obtain ⟨o1, h1, h2⟩ := Res.bind_eq_ok.mp h
    obtain ⟨i1, i2⟩ := ih h2
    obtain ⟨a1, a2⟩ := addProperty_same h1
    refine ⟨i1.trans ?_, a2.trans i2⟩
    have : ∀ (qs : List Property) (x y : Object), SameProps x.properties y.properties →
        SameProps (qs.foldl orInsert x).properties (qs.foldl orInsert y).properties := by
      intro qs
      induction qs with
      | nil => intro x y h; exact h
      | cons q qs ih => intro x y h; exact ih _ _ (orInsert_congr h q)
    exact this ps o1 (o.orInsert p) a1

/-! ## Panic conditions of the property maps -/

/-- Row of a code in a Format-2 map. -/
def rowOf (c : UInt8) : Nat := ((c - 0x80) &&& 0x0F).toNat + 1
/-- The mask the code ORs into that row. -/
def maskOf (c : UInt8) : UInt8 := ((1 : UInt8) <<< ((((c - 0x80) &&& 0xF0) >>> 4) % 8)) &&& 0x0F

end Object

theorem mapStep_facts (c : UInt8) :
    (((c - 0x80) &&& 0x0F) + 1).toNat = Object.rowOf c ∧ Object.rowOf c ≤ 16 ∧
    (0x80 ≤ c → subU8 .dev c 0x80 = .ok (c - 0x80) ∧
      shlU8 .dev 1 ((((c - 0x80) &&& 0xF0) >>> 4) &&& 0x0F)
        = .ok ((1 : UInt8) <<< ((((c - 0x80) &&& 0xF0) >>> 4) % 8))) ∧
    shlU8 .release 1 ((((c - 0x80) &&& 0xF0) >>> 4) &&& 0x0F)
        = .ok ((1 : UInt8) <<< ((((c - 0x80) &&& 0xF0) >>> 4) % 8)) ∧
    subU8 .release c 0x80 = .ok (c - 0x80) ∧
    (¬ 0x80 ≤ c → subU8 .dev c 0x80 = .panic) := by
  revert c; decide +kernel

theorem build_cases (b : Build) : b = .dev ∨ b = .release := by
  obtain ⟨_ | _⟩ := b <;> simp [Build.dev, Build.release]

theorem mapStep_eq (b : Build) (bytes : List UInt8) (c : UInt8) (hl : bytes.length = 17)
    (hc : b.overflowChecks = false ∨ 0x80 ≤ c) :
    mapStep b bytes c =
      .ok (bytes.set (Object.rowOf c) ((bytes[Object.rowOf c]?).getD 0 ||| Object.maskOf c)) := by
  obtain ⟨f1, f2, f3, f4, f5, _⟩ := mapStep_facts c
  have hi : index bytes (Object.rowOf c) = .ok ((bytes[Object.rowOf c]?).getD 0) := by
    have : Object.rowOf c < bytes.length := by omega
    rw [index_lt this, List.getElem?_eq_getElem this]; rfl
  rcases build_cases b with rfl | rfl
  · have hc : 0x80 ≤ c := by simpa [Build.dev] using hc
    obtain ⟨f3, f3'⟩ := f3 hc
    simp only [mapStep, f3, f3', f1, Res.bind_ok, hi, Object.maskOf, Res.pure_eq]
  · simp only [mapStep, f4, f5, f1, Res.bind_ok, hi, Object.maskOf, Res.pure_eq]

theorem mapFold_ok (b : Build) (codes : List UInt8) (bytes : List UInt8) (hl : bytes.length = 17)
    (hc : b.overflowChecks = false ∨ ∀ c ∈ codes, 0x80 ≤ c) :
    ∃ out, codes.foldlM (mapStep b) bytes = .ok out ∧ out.length = 17 := by
  induction codes generalizing bytes with
  | nil => exact ⟨bytes, rfl, hl⟩
  | cons c cs ih =>
    rw [List.foldlM_cons, mapStep_eq b bytes c hl (hc.imp id (fun h => h c (by simp)))]
    exact ih _ (by simp [hl]) (hc.imp id (fun h d hd => h d (by simp [hd])))

/-- Exactly when building a property map panics. -/
theorem toPropertyMapBytes_panic_iff (b : Build) (codes : List UInt8) :
    toPropertyMapBytes b codes = .panic ↔
      b.overflowChecks = true ∧ 15 < codes.length ∧ ∃ c ∈ codes, c < 0x80 := by
  unfold toPropertyMapBytes propertyMapFormat1Max
  by_cases hl : codes.length ≤ 15
  · simp [hl]; omega
  · rw [if_neg hl]
    constructor
    · intro h
      refine Classical.byContradiction fun hn => ?_
      have hc : b.overflowChecks = false ∨ ∀ c ∈ codes, 0x80 ≤ c := by
        cases hb : b.overflowChecks with
        | false => exact Or.inl rfl
        | true =>
          refine Or.inr fun c hcm => ?_
          refine Classical.byContradiction fun hlt => hn ⟨hb, by omega, c, hcm, ?_⟩
          exact UInt8.not_le.mp hlt
      obtain ⟨out, ho, _⟩ := mapFold_ok b codes (UInt8.ofNat codes.length ::
        List.replicate propertyMapFormat2Size 0) (by simp [propertyMapFormat2Size]) hc
      rw [ho] at h; simp at h
    · rintro ⟨hb, _, c, hc, hlt⟩
      have hdev : b = .dev := by
        rcases build_cases b with h | h
        · exact h
        · rw [h] at hb; simp [Build.release] at hb
      subst hdev
      have hp : ∀ bytes, mapStep .dev bytes c = .panic := by
        intro bytes
        have := (mapStep_facts c).2.2.2.2.2 (UInt8.not_le.mpr hlt)
        simp only [mapStep, this, Res.bind_panic]
      generalize (UInt8.ofNat codes.length :: List.replicate propertyMapFormat2Size 0) = bytes
      clear hl
      rename_i hlen
      clear hlen
      induction codes generalizing bytes with
      | nil => simp at hc
      | cons d ds ih =>
        rw [List.foldlM_cons]
        rcases List.mem_cons.mp hc with h | h
        · subst h; rw [hp]; rfl
        · cases mapStep .dev bytes d with
          | panic => rfl
          | ok x => exact ih h x

theorem toPropertyMapBytes_ok (b : Build) (codes : List UInt8)
    (h : b.overflowChecks = false ∨ ∀ c ∈ codes, 0x80 ≤ c) :
    ∃ out, toPropertyMapBytes b codes = .ok out := by
  cases hr : toPropertyMapBytes b codes with
  | ok out => exact ⟨out, rfl⟩
  | panic =>
    obtain ⟨h1, _, c, h3, h4⟩ := (toPropertyMapBytes_panic_iff b codes).mp hr
    rcases h with h | h
    · rw [h1] at h; simp at h
    · exact absurd (h c h3) (UInt8.not_le.mpr h4)

namespace Object

theorem mem_mapCodes {o : Object} {order : List UInt8} (ho : IsOrder order) {sel : Property → Bool}
    {c : UInt8} : c ∈ o.mapCodes order sel ↔ ∃ k p, o.properties k = some p ∧ sel p = true ∧ p.code = c := by
  unfold mapCodes values
  simp only [List.mem_map, List.mem_filter, List.mem_filterMap]
  constructor
  · rintro ⟨p, ⟨⟨k, _, h⟩, hs⟩, hc⟩; exact ⟨k, p, h, hs, hc⟩
  · rintro ⟨k, p, h, hs, hc⟩; exact ⟨p, ⟨⟨k, ho.mem k, h⟩, hs⟩, hc⟩

/-- The condition under which adding properties cannot panic. -/
def MapsOk (b : Build) (o : Object) : Prop := b.overflowChecks = false ∨ CodesOk o

theorem updatePropertyMaps_no_panic {b : Build} {order : List UInt8} (ho : IsOrder order) {o : Object}
    (h : MapsOk b o) : ∃ o', updatePropertyMaps b order o = .ok o' := by
  have key : ∀ sel, ∃ out, toPropertyMapBytes b (o.mapCodes order sel) = .ok out := by
    intro sel
    refine toPropertyMapBytes_ok _ _ (h.imp id fun hc c hm => ?_)
    obtain ⟨k, p, h1, _, rfl⟩ := (mem_mapCodes ho).mp hm
    exact hc k p h1
  obtain ⟨g, hg⟩ := key Property.isReadable
  obtain ⟨s, hs⟩ := key Property.isWritable
  obtain ⟨a, ha⟩ := key Property.isAnnounceable
  simp only [updatePropertyMaps, hg, hs, ha, Res.bind_ok, Res.pure_eq]
  exact ⟨_, rfl⟩

theorem codesOk_congr {o o' : Object} (h : SameProps o.properties o'.properties) (hc : CodesOk o) :
    CodesOk o' := by
  intro k p hp
  obtain ⟨q, hq, ha, _⟩ := h.symm.some hp
  have := hc k q hq
  have : q.code = p.code := show (attrsOf q).code = (attrsOf p).code by rw [ha]
  rw [← this]; assumption

theorem keysOk_congr {o o' : Object} (h : SameProps o.properties o'.properties) (hc : KeysOk o) :
    KeysOk o' := by
  intro k p hp
  obtain ⟨q, hq, ha, _⟩ := h.symm.some hp
  have h1 := hc k q hq
  have : q.code = p.code := show (attrsOf q).code = (attrsOf p).code by rw [ha]
  rw [← this]; assumption

theorem orInsert_props (o : Object) (p : Property) (c : UInt8) :
    (o.orInsert p).properties c = if c = p.code then some ((o.properties c).getD p)
      else o.properties c := rfl

theorem orInsert_codesOk {o : Object} {p : Property} (h : CodesOk o) (hp : 0x80 ≤ p.code) :
    CodesOk (o.orInsert p) := by
  intro k q hq
  rw [orInsert_props] at hq
  split at hq
  · rename_i hk
    simp only [Option.some.injEq] at hq
    cases h2 : o.properties k with
    | none => rw [h2] at hq; simp only [Option.getD_none] at hq; rw [← hq]; exact hp
    | some r => rw [h2] at hq; simp only [Option.getD_some] at hq; rw [← hq]; exact h k r h2
  · exact h k q hq

theorem orInsert_keysOk {o : Object} {p : Property} (h : KeysOk o) : KeysOk (o.orInsert p) := by
  intro k q hq
  rw [orInsert_props] at hq
  split at hq
  · rename_i hk
    simp only [Option.some.injEq] at hq
    cases h2 : o.properties k with
    | none => rw [h2] at hq; simp only [Option.getD_none] at hq; rw [← hq, hk]
    | some r => rw [h2] at hq; simp only [Option.getD_some] at hq; rw [← hq]; exact h k r h2
  · exact h k q hq

theorem setPropertyData_codesOk {o : Object} (h : CodesOk o) (c : UInt8) (d : List UInt8) :
    CodesOk (o.setPropertyData c d).2 := by
  intro k p hp
  rw [setPropertyData_props] at hp
  split at hp
  · rename_i hk
    cases h2 : o.properties c with
    | none => rw [h2] at hp; simp at hp
    | some r =>
      rw [h2] at hp; simp only [Option.map_some, Option.some.injEq] at hp
      rw [← hp]; exact h c r h2
  · exact h k p hp

theorem setPropertyData_keysOk {o : Object} (h : KeysOk o) (c : UInt8) (d : List UInt8) :
    KeysOk (o.setPropertyData c d).2 := by
  intro k p hp
  rw [setPropertyData_props] at hp
  split at hp
  · rename_i hk
    cases h2 : o.properties c with
    | none => rw [h2] at hp; simp at hp
    | some r =>
      rw [h2] at hp; simp only [Option.map_some, Option.some.injEq] at hp
      rw [← hp, hk]; exact h c r h2
  · exact h k p hp

theorem addProperty_codesOk {b : Build} {order : List UInt8} {o o' : Object} {p : Property}
    (h : addProperty b order o p = .ok o') (hc : CodesOk o) (hp : 0x80 ≤ p.code) : CodesOk o' :=
  codesOk_congr (addProperty_same h).1.symm (orInsert_codesOk hc hp)

theorem addProperty_keysOk {b : Build} {order : List UInt8} {o o' : Object} {p : Property}
    (h : addProperty b order o p = .ok o') (hk : KeysOk o) : KeysOk o' :=
  keysOk_congr (addProperty_same h).1.symm (orInsert_keysOk hk)

theorem addProperty_no_panic {b : Build} {order : List UInt8} (ho : IsOrder order) {o : Object}
    {p : Property} (h : MapsOk b o) (hp : b.overflowChecks = false ∨ 0x80 ≤ p.code) :
    ∃ o', addProperty b order o p = .ok o' := by
  apply updatePropertyMaps_no_panic ho
  rcases h with h | h
  · exact Or.inl h
  · rcases hp with hp | hp
    · exact Or.inl hp
    · exact Or.inr (orInsert_codesOk h hp)

theorem addAll_no_panic {b : Build} {ω : HashOrder} {o : Object} {ps : List Property}
    (h : MapsOk b o) (hp : b.overflowChecks = false ∨ ∀ p ∈ ps, 0x80 ≤ p.code) :
    ∃ o', addAll b ω o ps = .ok o' := by
  induction ps generalizing o ω with
  | nil => exact ⟨o, rfl⟩
  | cons p ps ih =>
    obtain ⟨o1, h1⟩ := addProperty_no_panic (order := (ω.sub 0).here) (HashOrder.isOrder _) h
      (hp.imp id (fun h => h p (by simp)))
    simp only [addAll, h1, Res.bind_ok]
    apply ih
    · rcases h with h | h
      · exact Or.inl h
      · rcases hp with hp | hp
        · exact Or.inl hp
        · exact Or.inr (addProperty_codesOk h1 h (hp p (by simp)))
    · exact hp.imp id (fun h q hq => h q (by simp [hq]))

/-! ## Folding `orInsert` over properties with distinct codes -/

/-- The table obtained by inserting `ps` into an empty object, first one wins. -/
theorem foldl_orInsert_props (ps : List Property) (o : Object) (c : UInt8) :
    (ps.foldl orInsert o).properties c =
      match o.properties c with
      | some p => some p
      | none => ps.find? (fun p => p.code == c) := by
  induction ps generalizing o with
  | nil => simp; cases o.properties c <;> rfl
  | cons p ps ih =>
    rw [List.foldl_cons, ih, orInsert_props]
    by_cases hc : c = p.code
    · subst hc
      simp only [if_true, List.find?_cons, beq_self_eq_true]
      cases o.properties p.code <;> rfl
    · have hc' : (p.code == c) = false := by simpa using Ne.symm hc
      simp only [hc, if_false, List.find?_cons, hc']

theorem values_find {o : Object} (hk : KeysOk o) {order : List UInt8} (ho : IsOrder order) (c : UInt8) :
    (o.values order).find? (fun p => p.code == c) = o.properties c := by
  unfold values
  have hc : c ∈ order := ho.mem c
  clear ho
  induction order with
  | nil => simp at hc
  | cons k ks ih =>
    cases hp : o.properties k with
    | none =>
      rw [List.filterMap_cons_none hp]
      rcases List.mem_cons.mp hc with h | h
      · subst h
        rw [hp]
        rw [List.find?_eq_none]
        intro q hq
        obtain ⟨k', _, hk'⟩ := List.mem_filterMap.mp hq
        have := hk k' q hk'
        intro hcq
        have hcq : q.code = c := by simpa using hcq
        rw [← this, hcq, hp] at hk'
        simp at hk'
      · exact ih h
    | some p =>
      rw [List.filterMap_cons_some hp, List.find?_cons]
      have hpk := hk k p hp
      by_cases h : k = c
      · rw [hpk, h]; simp only [beq_self_eq_true]; rw [← h, hp]
      · rw [hpk]
        have : (k == c) = false := by simpa using h
        rw [this]
        exact ih ((List.mem_cons.mp hc).resolve_left (Ne.symm h))

theorem clone_same {b : Build} {ω : HashOrder} {o o' : Object} (hk : KeysOk o)
    (h : clone b ω o = .ok o') : SameProps o'.properties o.properties ∧ SameId o o' := by
  obtain ⟨h1, h2⟩ := addAll_same h
  refine ⟨h1.trans ?_, h2⟩
  have : ((o.values ω.here).foldl orInsert { o with properties := fun _ => none }).properties
      = o.properties := by
    funext c
    rw [foldl_orInsert_props]
    exact values_find hk ω.isOrder c
  rw [this]; exact SameProps.refl _

theorem clone_no_panic {b : Build} {ω : HashOrder} {o : Object} (h : MapsOk b o) :
    ∃ o', clone b ω o = .ok o' := by
  apply addAll_no_panic
  · rcases h with h | _
    · exact Or.inl h
    · exact Or.inr (fun k p hp => by simp at hp)
  · refine h.imp id (fun h p hp => ?_)
    obtain ⟨k, _, hk⟩ := List.mem_filterMap.mp hp
    exact h k p hk

end Object

/-! ## Contents of the property maps -/

/-- Bit of a code in a Format-2 map, at byte level (index 1..16). -/
def mapBit (bytes : List UInt8) (c : UInt8) : Bool :=
  ((bytes[Object.rowOf c]?).getD 0).toNat.testBit (c.toNat / 16 - 8)

theorem rowOf_toNat (c : UInt8) : Object.rowOf c = c.toNat % 16 + 1 := by
  revert c; decide +kernel

theorem maskOf_toNat (c : UInt8) (h : 0x80 ≤ c) :
    (Object.maskOf c).toNat = if c.toNat / 16 - 8 < 4 then 2 ^ (c.toNat / 16 - 8) else 0 := by
  revert c; decide +kernel

theorem mapBit_step (bytes : List UInt8) (hl : bytes.length = 17) (c d : UInt8) (hc : 0x80 ≤ c)
    (hd : 0x80 ≤ d) :
    mapBit (bytes.set (Object.rowOf d) ((bytes[Object.rowOf d]?).getD 0 ||| Object.maskOf d)) c =
      (mapBit bytes c || decide (c = d ∧ d < 0xC0)) := by
  have hcn : 128 ≤ c.toNat := UInt8.le_iff_toNat_le.mp hc
  have hdn : 128 ≤ d.toNat := UInt8.le_iff_toNat_le.mp hd
  have hcl := c.toNat_lt
  have hdl := d.toNat_lt
  have hC0 : d < 0xC0 ↔ d.toNat < 192 := UInt8.lt_iff_toNat_lt
  unfold mapBit
  by_cases hr : Object.rowOf d = Object.rowOf c
  · have hlt : Object.rowOf c < bytes.length := by
      have := (mapStep_facts c).2.1; omega
    rw [hr, List.getElem?_set_self hlt]
    simp only [Option.getD_some, UInt8.toNat_or, Nat.testBit_or]
    congr 1
    rw [maskOf_toNat d hd]
    rw [rowOf_toNat, rowOf_toNat] at hr
    have heq : c = d ↔ c.toNat / 16 - 8 = d.toNat / 16 - 8 := by
      constructor
      · rintro rfl; rfl
      · intro h; apply UInt8.toNat.inj; omega
    by_cases h4 : d.toNat / 16 - 8 < 4
    · rw [if_pos h4, Nat.testBit_two_pow]
      have : d < 0xC0 := hC0.mpr (by omega)
      simp only [this, and_true, heq]
      by_cases h : d.toNat / 16 - 8 = c.toNat / 16 - 8
      · simp [h]
      · simp [h, Ne.symm h]
    · rw [if_neg h4]
      have : ¬ d < 0xC0 := fun h => by have := hC0.mp h; omega
      simp [this]
  · rw [List.getElem?_set_ne hr]
    have : c ≠ d := by rintro rfl; exact hr rfl
    simp [this]

theorem mapFold_bits (b : Build) (codes : List UInt8) (bytes out : List UInt8)
    (hl : bytes.length = 17) (hc : ∀ c ∈ codes, 0x80 ≤ c)
    (h : codes.foldlM (mapStep b) bytes = .ok out) (c : UInt8) (hc8 : 0x80 ≤ c) :
    mapBit out c = (mapBit bytes c || decide (c ∈ codes ∧ c < 0xC0)) ∧ out[0]? = bytes[0]? := by
  induction codes generalizing bytes with
  | nil =>
    simp only [List.foldlM_nil, Res.pure_eq, Res.ok.injEq] at h
    subst h; simp
  | cons d ds ih =>
    rw [List.foldlM_cons, mapStep_eq b bytes d hl (Or.inr (hc d (by simp))), Res.bind_ok] at h
    obtain ⟨h1, h2⟩ := ih _ (by simp [hl]) (fun e he => hc e (by simp [he])) h
    constructor
    · rw [h1, mapBit_step bytes hl c d hc8 (hc d (by simp)), Bool.or_assoc]
      congr 1
      rw [Bool.eq_iff_iff]
      simp only [Bool.or_eq_true, decide_eq_true_eq, List.mem_cons]
      constructor
      · rintro (⟨rfl, h⟩ | ⟨h, h'⟩)
        · exact ⟨Or.inl rfl, h⟩
        · exact ⟨Or.inr h, h'⟩
      · rintro ⟨rfl | h, h'⟩
        · exact Or.inl ⟨rfl, h'⟩
        · exact Or.inr ⟨h, h'⟩
    · rw [h2, List.getElem?_set_ne]
      rw [rowOf_toNat]; omega

/-- What a reader of the property map sees. -/
theorem toPropertyMapBytes_contains (b : Build) (codes data : List UInt8)
    (hc : ∀ c ∈ codes, 0x80 ≤ c) (hlen : codes.length ≤ 255)
    (h : toPropertyMapBytes b codes = .ok data) (c : UInt8) :
    mapContains data c = true ↔ c ∈ codes ∧ (codes.length ≤ 15 ∨ c < 0xC0) := by
  unfold toPropertyMapBytes propertyMapFormat1Max at h
  by_cases hl : codes.length ≤ 15
  · rw [if_pos hl] at h
    simp only [Res.ok.injEq] at h
    subst h
    have h16 : codes.length < 16 := by omega
    simp only [mapContains, toNat_ofNat_le (show codes.length ≤ 255 by omega), h16, if_true,
      List.take_length, List.contains_iff_mem, hl, true_or, and_true]
  · rw [if_neg hl] at h
    simp only [hl, false_or]
    have hl17 : (UInt8.ofNat codes.length :: List.replicate propertyMapFormat2Size (0 : UInt8)).length
        = 17 := by simp [propertyMapFormat2Size]
    by_cases hc8 : 0x80 ≤ c
    · obtain ⟨h1, h2⟩ := mapFold_bits b codes _ data hl17 hc h c hc8
      cases data with
      | nil => simp at h2
      | cons n rest =>
        simp only [List.getElem?_cons_zero, Option.some.injEq] at h2
        subst h2
        have hz : mapBit (UInt8.ofNat codes.length :: List.replicate propertyMapFormat2Size 0) c
            = false := by
          unfold mapBit
          rw [rowOf_toNat, List.getElem?_cons_succ, List.getElem?_replicate]
          split <;> simp
        rw [hz, Bool.false_or] at h1
        unfold mapBit at h1
        rw [rowOf_toNat, List.getElem?_cons_succ] at h1
        have hcn : 128 ≤ c.toNat := UInt8.le_iff_toNat_le.mp hc8
        simp only [mapContains, toNat_ofNat_le hlen, show ¬ codes.length < 16 by omega, if_false, h1]
        simp [hcn]
    · have hne : c ∉ codes := fun hm => hc8 (hc c hm)
      have hcn : ¬ 128 ≤ c.toNat := fun h => hc8 (UInt8.le_iff_toNat_le.mpr h)
      have h0 : data[0]? = some (UInt8.ofNat codes.length) := by
        have := (mapFold_bits b codes _ data hl17 hc h 0x80 (by decide)).2
        simpa using this
      cases data with
      | nil => simp at h0
      | cons n rest =>
        simp only [List.getElem?_cons_zero, Option.some.injEq] at h0
        subst h0
        simp only [mapContains, toNat_ofNat_le hlen, show ¬ codes.length < 16 by omega, if_false]
        simp [hne, hcn]

namespace Object

theorem mapCodes_eq {o : Object} (hk : KeysOk o) (order : List UInt8) (sel : Property → Bool) :
    o.mapCodes order sel = order.filter (fun c => match o.properties c with
      | some p => sel p
      | none => false) := by
  unfold mapCodes values
  induction order with
  | nil => rfl
  | cons k ks ih =>
    cases hp : o.properties k with
    | none => rw [List.filterMap_cons_none hp, List.filter_cons, hp]; simp [ih]
    | some p =>
      rw [List.filterMap_cons_some hp, List.filter_cons, List.filter_cons, hp]
      have := hk k p hp
      by_cases hs : sel p = true
      · simp only [hs, if_true, List.map_cons, this, ih]
      · simp only [hs, Bool.false_eq_true, if_false, ih]

theorem mapCodes_perm {o : Object} (hk : KeysOk o) {order : List UInt8} (ho : IsOrder order)
    (sel : Property → Bool) : (o.mapCodes order sel).Perm (accessible o sel) := by
  rw [mapCodes_eq hk]; exact ho.filter _

theorem mem_accessible {o : Object} {sel : Property → Bool} {c : UInt8} :
    c ∈ accessible o sel ↔ ∃ p, o.properties c = some p ∧ sel p = true := by
  unfold accessible
  rw [List.mem_filter]
  cases h : o.properties c with
  | none => simp
  | some p => simp [mem_allCodes]

theorem accessible_congr {o o' : Object} (h : SameProps o.properties o'.properties)
    {sel : Property → Bool} (hs : ∀ p, sel (attrsOf p) = sel p) : accessible o sel = accessible o' sel := by
  unfold accessible
  apply List.filter_congr
  intro c _
  have h2 := (h c).2
  cases h3 : o.properties c <;> cases h4 : o'.properties c <;> rw [h3, h4] at h2 <;> simp at h2 ⊢
  rw [← hs, h2, hs]

theorem accessible_length {o : Object} (hc : CodesOk o) (hk : KeysOk o) (sel : Property → Bool) :
    (accessible o sel).length ≤ 255 := by
  unfold accessible
  have h1 : (allCodes.filter fun c => match o.properties c with
      | some p => sel p
      | none => false).length ≤ (allCodes.filter (fun c => decide (0x80 ≤ c))).length := by
    apply List.Sublist.length_le
    have : ∀ l : List UInt8, (l.filter fun c => match o.properties c with
        | some p => sel p
        | none => false) = (l.filter (fun c => decide (0x80 ≤ c))).filter fun c =>
          match o.properties c with
          | some p => sel p
          | none => false := by
      intro l
      rw [List.filter_filter]
      apply List.filter_congr
      intro c _
      cases h : o.properties c with
      | none => simp
      | some p =>
        have := hc c p h
        rw [hk c p h] at this
        simp [this]
    rw [this]
    exact List.filter_sublist
  have h2 : (allCodes.filter (fun c => decide (0x80 ≤ c))).length = 128 := by decide +kernel
  rw [h2] at h1
  exact Nat.le_trans h1 (by omega)

/-- The data of the three property maps right after a recomputation. -/
theorem updatePropertyMaps_data {b : Build} {order : List UInt8} {o o' : Object}
    (h : updatePropertyMaps b order o = .ok o') :
    (∀ p, o'.properties 0x9F = some p →
      toPropertyMapBytes b (o.mapCodes order Property.isReadable) = .ok p.data) ∧
    (∀ p, o'.properties 0x9E = some p →
      toPropertyMapBytes b (o.mapCodes order Property.isWritable) = .ok p.data) ∧
    (∀ p, o'.properties 0x9D = some p →
      toPropertyMapBytes b (o.mapCodes order Property.isAnnounceable) = .ok p.data) := by
  obtain ⟨g, s, a, hg, hs, ha, rfl⟩ := updatePropertyMaps_ok h
  refine ⟨fun p hp => ?_, fun p hp => ?_, fun p hp => ?_⟩ <;>
    simp only [setPropertyData_props] at hp
  · rw [if_neg (by decide), if_neg (by decide), if_pos trivial] at hp
    obtain ⟨q, _, rfl⟩ := Option.map_eq_some_iff.mp hp
    exact hg
  · rw [if_neg (by decide), if_pos trivial] at hp
    obtain ⟨q, _, rfl⟩ := Option.map_eq_some_iff.mp hp
    exact hs
  · rw [if_pos trivial] at hp
    obtain ⟨q, _, rfl⟩ := Option.map_eq_some_iff.mp hp
    exact ha

end Object
end Uecho
