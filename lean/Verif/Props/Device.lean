import Verif.Props.Profile
/-!
# New devices and the node profile: C20, C22, C54
-/
namespace Uecho
open Spec
variable {S : Type}

theorem code_lt (o : Object) : o.code.toNat < 2 ^ 24 := by
  rw [Object.code_toNat]
  have := o.codes.1.toNat_lt
  have := o.codes.2.1.toNat_lt
  have := o.codes.2.2.toNat_lt
  omega

/-! ## C20 -/

/-- The definition of a property of a standard device: that of the super class if it has one, else that of
the device's class. -/
def Spec.standardDef (code : UInt32) (c : UInt8) : Option Property :=
  match firstDef Table.class_0000 c with
  | some p => some p
  | none => (classOf code.toNat).bind (fun d => firstDef d c)

/-- The data a new device starts with. -/
def Spec.InitialData (o : Object) : Prop :=
  (∃ p, o.findProperty 0x80 = some p ∧ p.data = [0x31]) ∧
  (∃ p, o.findProperty 0x88 = some p ∧ p.data = [0x42]) ∧
  (∃ p, o.findProperty 0x8A = some p ∧ p.data = [0xFF, 0xFF, 0xFF]) ∧
  (∃ p, o.findProperty 0x81 = some p ∧ p.data = [0x00]) ∧
  (∃ p, o.findProperty 0x82 = some p ∧ p.data = [0x00, 0x00, 0x50, 0x00]) ∧
  (∃ p, o.findProperty 0x83 = some p ∧ p.data.length = 17 ∧ p.data.take 4 = [0xFE, 0xFF, 0xFF, 0xFF])

theorem standardTable_attrs (uuid₁ uuid₂ : List UInt8) (code : UInt32) (c : UInt8) :
    (standardTable uuid₁ uuid₂ code.toNat c).map attrsOf = (standardDef code c).map attrsOf := by
  unfold standardTable standardDef
  cases hc : classOf code.toNat with
  | none =>
    simp only [importTable]
    cases h0 : firstDef Table.class_0000 c with
    | none => rfl
    | some p => simp [Object.imported_attrs]
  | some d =>
    simp only [importTable]
    cases h0 : firstDef Table.class_0000 c with
    | none =>
      cases h1 : firstDef d c with
      | none => simp [h1]
      | some q => simp [h1, Object.imported_attrs]
    | some p =>
      cases h1 : firstDef d c with
      | none => simp [Object.imported_attrs]
      | some q => simp [Object.imported_attrs]

theorem super_has : ∀ c ∈ ([0x80, 0x88, 0x8A, 0x81, 0x82, 0x83] : List UInt8), (firstDef Table.class_0000 c).isSome := by
  have : ([0x80, 0x88, 0x8A, 0x81, 0x82, 0x83] : List UInt8).all (fun c => (firstDef Table.class_0000 c).isSome) = true := by
    decide +kernel
  intro c hc
  exact List.all_eq_true.mp this c hc

/-- The data of an initialised property of a standard table. -/
theorem standardTable_data (uuid₁ uuid₂ : List UInt8) (code : Nat) {c : UInt8}
    (hc : c ∈ ([0x80, 0x88, 0x8A, 0x81, 0x82, 0x83] : List UInt8)) :
    ∃ p u, standardTable uuid₁ uuid₂ code c = some p ∧ (u = uuid₁ ∨ u = uuid₂) ∧
      some p.data = defaultData u c := by
  obtain ⟨q, hq⟩ := Option.isSome_iff_exists.mp (super_has c hc)
  have hdef : ∀ u, ∃ d, defaultData u c = some d := by
    intro u
    simp only [List.mem_cons, List.not_mem_nil, or_false] at hc
    rcases hc with rfl | rfl | rfl | rfl | rfl | rfl <;> exact ⟨_, rfl⟩
  have himp : ∀ u p, some (imported u c p).data = defaultData u c := by
    intro u p
    obtain ⟨d, hd⟩ := hdef u
    unfold imported; rw [hd]
  unfold standardTable
  cases hco : classOf code with
  | none => exact ⟨imported uuid₁ c q, uuid₁, by simp [importTable, hq], Or.inl rfl, himp _ _⟩
  | some d =>
    cases hd : firstDef d c with
    | none => exact ⟨imported uuid₁ c q, uuid₁, by simp [importTable, hq, hd], Or.inl rfl, himp _ _⟩
    | some r =>
      exact ⟨imported uuid₂ c (imported uuid₁ c q), uuid₂, by simp [importTable, hq, hd], Or.inr rfl, himp _ _⟩

theorem initialData_of_table {uuid₁ uuid₂ : List UInt8} (hu₁ : uuid₁.length = 16) (hu₂ : uuid₂.length = 16)
    {code : Nat} {o : Object} (h : SameProps o.properties (standardTable uuid₁ uuid₂ code)) : InitialData o := by
  have key : ∀ c ∈ ([0x80, 0x88, 0x8A, 0x81, 0x82, 0x83] : List UInt8), ∃ p u, o.findProperty c = some p ∧
      u.length = 16 ∧ some p.data = defaultData u c := by
    intro c hc
    obtain ⟨p, u, hp, hu, hd⟩ := standardTable_data uuid₁ uuid₂ code hc
    have hm : isMapCode c = false := by
      simp only [List.mem_cons, List.not_mem_nil, or_false] at hc
      rcases hc with rfl | rfl | rfl | rfl | rfl | rfl <;> rfl
    have hul : u.length = 16 := by
      rcases hu with h | h
      · rw [h]; exact hu₁
      · rw [h]; exact hu₂
    have hpp : o.findProperty c = some p := by
      show o.properties c = some p
      rw [(h c).1 hm]; exact hp
    exact ⟨p, u, hpp, hul, hd⟩
  have simple : ∀ c ∈ ([0x80, 0x88, 0x8A, 0x81, 0x82, 0x83] : List UInt8), ∀ d, (∀ u, defaultData u c = some d) →
      ∃ p, o.findProperty c = some p ∧ p.data = d := by
    intro c hc d hd
    obtain ⟨p, u, hp, _, hpd⟩ := key c hc
    rw [hd u] at hpd
    exact ⟨p, hp, by simpa using hpd⟩
  refine ⟨simple _ (by simp) _ (fun _ => rfl), simple _ (by simp) _ (fun _ => rfl), simple _ (by simp) _ (fun _ => rfl),
    simple _ (by simp) _ (fun _ => rfl), simple _ (by simp) _ (fun _ => rfl), ?_⟩
  obtain ⟨p, u, hp, hu, hpd⟩ := key 0x83 (by simp)
  have : p.data = [0xFE, 0xFF, 0xFF, 0xFF] ++ (u.drop 3).reverse := by
    have h0 : defaultData u 0x83 = some ([0xFE, 0xFF, 0xFF, 0xFF] ++ (u.drop 3).reverse) := rfl
    rw [h0] at hpd; simpa using hpd
  refine ⟨p, hp, ?_, ?_⟩
  · rw [this]; simp [hu]
  · rw [this]; rfl

/-- C20: for every code, every hash order and every (16 byte) UUID, creating a device succeeds, and its node
consists of the node profile and an object with the low 24 bits of the code, whose properties are exactly
those of the super class and of its class (the definition of the super class taking precedence), with the
documented initial data. -/
theorem C20_new_device (b : Build) (ω₀ : HashOrder) (db : Database) (hdb : standardDb b ω₀ = .ok db)
    (uuid : Nat → List UInt8) (hu : ∀ i, (uuid i).length = 16) (ω : HashOrder) (code : UInt32) (app : S) :
    ∃ n np o, Device.new b db uuid ω code app = .ok (⟨code⟩, n) ∧ n.objects = [np, o] ∧
      np.code = profileCode ∧ o.code.toNat = code.toNat % 2 ^ 24 ∧
      (∀ c, (o.findProperty c).map attrsOf = (standardDef code c).map attrsOf) ∧ InitialData o := by
  obtain ⟨n₀, h1, hinv, hcodes, _⟩ := newNode_inv hdb (hu 0) (hu 1) (ω.sub 0) app
  obtain ⟨o, h2, h3, h4, h5, h6⟩ := deviceObject_spec hdb (hu 2) (hu 3) (ω.sub 1) code
  obtain ⟨np, ds, ho, hc, hs, hd⟩ := hinv.shape
  have hds : ds = [] := by rw [ho] at hcodes; exact (by simpa using hcodes : _ ∧ ds = []).2
  subst hds
  let n₁ : Node S := { deviceNodeNew n₀ with objects := (n₀.objects ++ [o]) }
  have hup := updateNodeProfile_eq b n₁ (np := np) (ds := [o]) (show n₀.objects ++ [o] = _ by rw [ho]; rfl) hc
  refine ⟨{ n₁ with
    objects := (mapProperties (profileProperty (n₁.objects.map Object.code) [o].length) np :: [o]) },
    mapProperties (profileProperty (n₁.objects.map Object.code) [o].length) np, o, ?_, rfl, hc, h3, ?_, ?_⟩
  · unfold Device.new
    rw [h1]
    simp only [Res.bind_ok, Device.newWithNode, h2]
    show Res.bind (n₁.updateNodeProfile b) _ = _
    rw [hup]
    rfl
  · intro c
    rw [← standardTable_attrs (uuid 2) (uuid 3)]
    exact (h4 c).2
  · exact initialData_of_table (hu 2) (hu 3) h4

/-- C20 through the API: for a code below 2^24 that is not the node profile's, `Device::property` reads the
initial data. -/
theorem C20_initial_data (b : Build) (ω₀ : HashOrder) (db : Database) (hdb : standardDb b ω₀ = .ok db)
    (uuid : Nat → List UInt8) (hu : ∀ i, (uuid i).length = 16) (ω : HashOrder) (code : UInt32) (app : S)
    (hlt : code.toNat < 2 ^ 24) (hne : code ≠ profileCode) :
    ∃ d n, Device.new b db uuid ω code app = .ok (d, n) ∧
      d.property n 0x80 = some [0x31] ∧ d.property n 0x88 = some [0x42] ∧
      d.property n 0x8A = some [0xFF, 0xFF, 0xFF] ∧ d.property n 0x81 = some [0x00] ∧
      d.property n 0x82 = some [0x00, 0x00, 0x50, 0x00] ∧
      (∃ s, d.property n 0x83 = some s ∧ s.length = 17 ∧ s.take 4 = [0xFE, 0xFF, 0xFF, 0xFF]) ∧
      (∀ c, (d.property n c).isSome = (standardDef code c).isSome) := by
  obtain ⟨n, np, o, h1, h2, h3, h4, h5, h6⟩ := C20_new_device b ω₀ db hdb uuid hu ω code app
  have hoc : o.code = code := UInt32.toNat.inj (by rw [h4]; omega)
  have hf : findObject n.objects code = some o := by
    rw [h2]
    exact findObject_append (pre := [np]) (post := []) (by
      intro x hx; rw [List.mem_singleton.mp hx, h3]; exact hne.symm) hoc
  have hprop : ∀ c, (Device.mk code).property n c = (o.findProperty c).map Property.data := by
    intro c
    unfold Device.property Node.property
    simp only [hf]
    cases o.findProperty c <;> rfl
  have get : ∀ {c d}, (∃ p, o.findProperty c = some p ∧ p.data = d) → (Device.mk code).property n c = some d := by
    rintro c d ⟨p, hp, rfl⟩
    rw [hprop, hp]; rfl
  obtain ⟨g1, g2, g3, g4, g5, p, hp, g6, g7⟩ := h6
  refine ⟨_, _, h1, get g1, get g2, get g3, get g4, get g5, ⟨p.data, get ⟨p, hp, rfl⟩, g6, g7⟩, ?_⟩
  intro c
  rw [hprop, Option.isSome_map]
  have := congrArg Option.isSome (h5 c)
  rwa [Option.isSome_map, Option.isSome_map] at this

/-- What goes wrong outside C20's intended range: a device created with a code of more than 24 bits cannot
access any of its properties, because no object ever has such a code. -/
theorem C20_fails_wide_code (b : Build) (ω₀ : HashOrder) (db : Database) (hdb : standardDb b ω₀ = .ok db)
    (uuid : Nat → List UInt8) (hu : ∀ i, (uuid i).length = 16) (ω : HashOrder) (code : UInt32) (app : S)
    (hge : 2 ^ 24 ≤ code.toNat) :
    ∃ d n, Device.new b db uuid ω code app = .ok (d, n) ∧
      ∀ c data, d.property n c = none ∧ d.setProperty n c data = (false, n) := by
  obtain ⟨n, _, _, h1, _⟩ := C20_new_device b ω₀ db hdb uuid hu ω code app
  refine ⟨_, n, h1, ?_⟩
  have hf : findObject n.objects code = none := by
    rw [findObject_none_iff]
    intro o _ hoc
    have := code_lt o
    rw [hoc] at this
    omega
  intro c data
  simp [Device.property, Device.setProperty, Node.property, Node.setProperty, hf]

/-- Non-vacuity of C20: a mono functional lighting device (0x029101). Its class is in the table, and it has
properties from both classes. -/
example : (classOf 0x029101).isSome ∧ (standardDef 0x029101 0x80).isSome ∧ (standardDef 0x029101 0xB0).isSome ∧
    (standardDef 0x029101 0xC0) = none := by decide +kernel

example (b : Build) : ∃ db, standardDb b .ascending = .ok db := let ⟨db, h, _⟩ := C21_builds b .ascending; ⟨db, h⟩

/-! ## C54 -/

/-- C54: `set_property` and `property` act on the first object with the device's code; `set_property`
succeeds exactly if that object exists and has the property, and then changes the data of that property and
nothing else. -/
theorem C54_property_access (d : Device) (n : Node S) (c : UInt8) (data : List UInt8) :
    ((d.setProperty n c data).1 = true ↔
      ∃ pre o post, n.objects = pre ++ o :: post ∧ (∀ x ∈ pre, x.code ≠ d.code) ∧ o.code = d.code ∧
        (o.findProperty c).isSome) ∧
    ((d.setProperty n c data).1 = false → (d.setProperty n c data).2 = n ∧ d.property n c = none) ∧
    (∀ pre o post p, n.objects = pre ++ o :: post → (∀ x ∈ pre, x.code ≠ d.code) → o.code = d.code →
      o.findProperty c = some p →
      d.property n c = some p.data ∧
      ∃ o', (d.setProperty n c data).2 = { n with objects := (pre ++ o' :: post) } ∧ o'.code = o.code ∧
        o'.name = o.name ∧ o'.className = o.className ∧ o'.findProperty c = some { p with data := data } ∧
        ∀ c', c' ≠ c → o'.findProperty c' = o.findProperty c') := by
  unfold Device.setProperty Device.property Node.setProperty Node.property
  refine ⟨?_, ?_, ?_⟩
  · cases hf : findObject n.objects d.code with
    | none =>
      simp only [Bool.false_eq_true, false_iff, not_exists]
      rintro pre o post ⟨ho, hpre, hc, _⟩
      rw [findObject_none_iff] at hf
      exact hf o (by rw [ho]; simp) hc
    | some o =>
      obtain ⟨pre, post, ho, hpre, hc⟩ := findObject_split hf
      simp only []
      cases hp : o.findProperty c with
      | none =>
        simp only [Bool.false_eq_true, false_iff, not_exists]
        rintro pre' o' post' ⟨ho', hpre', hc', hp'⟩
        have := findObject_append (post := post') hpre' hc'
        rw [← ho', hf] at this
        simp only [Option.some.injEq] at this
        rw [← this, hp] at hp'
        simp at hp'
      | some p =>
        simp only [true_iff]
        exact ⟨pre, o, post, ho, hpre, hc, by rw [hp]; rfl⟩
  · cases hf : findObject n.objects d.code with
    | none => simp
    | some o =>
      cases hp : o.findProperty c with
      | none => simp [hp]
      | some p => simp [hp]
  · intro pre o post p ho hpre hc hp
    have hf := findObject_append (post := post) hpre hc
    rw [← ho] at hf
    simp only [hf, hp, true_and]
    have hupd := updateObject_append (post := post) (fun o => (o.setPropertyData c data).2) hpre hc
    rw [← ho] at hupd
    refine ⟨(o.setPropertyData c data).2, by rw [hupd], Node.code_of_sameId (Object.setPropertyData_sameId o c data), ?_⟩
    have hp' : o.properties c = some p := hp
    simp only [Object.setPropertyData, hp', Object.findProperty]
    refine ⟨trivial, trivial, ?_, ?_⟩
    · simp [Property.setData]
    · intro c' hc'
      simp [hc']

/-- C54: reading back what was written, and reading anything else, through the API. -/
theorem C54_read_after_write (d d' : Device) (n : Node S) (c c' : UInt8) (data : List UInt8)
    (h : (d.setProperty n c data).1 = true) :
    d.property (d.setProperty n c data).2 c = some data ∧
    (d'.code ≠ d.code ∨ c' ≠ c → d'.property (d.setProperty n c data).2 c' = d'.property n c') := by
  obtain ⟨pre, o, post, ho, hpre, hc, hp⟩ := (C54_property_access d n c data).1.mp h
  obtain ⟨p, hp⟩ := Option.isSome_iff_exists.mp hp
  obtain ⟨_, o', h1, h2, _, _, h3, h4⟩ := (C54_property_access d n c data).2.2 pre o post p ho hpre hc hp
  rw [h1]
  constructor
  · unfold Device.property Node.property
    have := findObject_append (post := post) hpre (h2.trans hc)
    simp only [this, h3]
  · intro hne
    unfold Device.property Node.property
    by_cases hd : d'.code = d.code
    · have hcc : c' ≠ c := by
        rcases hne with h | h
        · exact absurd hd h
        · exact h
      have g1 := findObject_append (post := post) hpre (h2.trans hc)
      have g2 := findObject_append (post := post) hpre hc
      rw [hd, ho, g2]
      simp only [g1, h4 c' hcc]
    · have hcne : (o'.code == d'.code) = false ∧ (o.code == d'.code) = false := by
        rw [h2, hc]
        have : (d.code == d'.code) = false := by simpa using fun h => hd h.symm
        exact ⟨this, this⟩
      have : findObject (pre ++ o' :: post) d'.code = findObject n.objects d'.code := by
        rw [ho]
        unfold findObject
        rw [List.find?_append, List.find?_append, List.find?_cons, List.find?_cons, hcne.1, hcne.2]
      simp only [this]

/-- Non-vacuity of C54: a node with an object 0x029001; its property 0x80 is written, its missing property
0xC0 is not. -/
example : ∃ n, exNode [] = .ok n ∧ ((Device.mk 0x029001).setProperty n 0x80 [0x31]).1 = true ∧
    (Device.mk 0x029001).property ((Device.mk 0x029001).setProperty n 0x80 [0x31]).2 0x80 = some [0x31] ∧
    ((Device.mk 0x029001).setProperty n 0xC0 [1]).1 = false ∧ (Device.mk 0x029001).property n 0x80 = some [0x30] := by
  refine ⟨_, rfl, ?_⟩ <;> decide +kernel

/-- The outcome `r` of a call on device `d` of node `n`: it succeeds iff the device has property `c`, the
property then reads as `data`, and nothing else is different afterwards. -/
def Spec.Sets (d : Device) (n : Node S) (c : UInt8) (data : List UInt8) (r : Bool × Node S) : Prop :=
  (r.1 = true ↔ (d.property n c).isSome) ∧ (r.1 = true → d.property r.2 c = some data) ∧
  ∀ d' c', d'.code ≠ d.code ∨ c' ≠ c → Device.property d' r.2 c' = d'.property n c'

theorem setProperty_sets (d : Device) (n : Node S) (c : UInt8) (data : List UInt8) :
    Sets d n c data (d.setProperty n c data) := by
  have hacc := C54_property_access d n c data
  refine ⟨⟨?_, ?_⟩, fun h => (C54_read_after_write d d n c c data h).1, ?_⟩
  · intro h
    obtain ⟨pre, o, post, ho, hpre, hc, hp⟩ := hacc.1.mp h
    obtain ⟨p, hp⟩ := Option.isSome_iff_exists.mp hp
    rw [(hacc.2.2 pre o post p ho hpre hc hp).1]; rfl
  · intro h
    cases hr : (d.setProperty n c data).1 with
    | true => rfl
    | false => rw [(hacc.2.1 hr).2] at h; simp at h
  · intro d' c' hne
    cases hr : (d.setProperty n c data).1 with
    | true => exact (C54_read_after_write d d' n c c' data hr).2 hne
    | false => rw [(hacc.2.1 hr).1]

/-- C54: the convenience setters of a device write the values the ECHONET specification defines: operating
status 0x30 on / 0x31 off in 0x80, installation location in 0x81, version information in 0x82, fault status
0x41 fault / 0x42 no fault in 0x88, the three bytes of the manufacturer code in 0x8A. -/
theorem C54_device_setters (b : Build) (d : Device) (n : Node S) (v : UInt8) (m : UInt32) :
    Sets d n 0x80 [0x30] (d.setOperatingStatus n true) ∧ Sets d n 0x80 [0x31] (d.setOperatingStatus n false) ∧
    Sets d n 0x81 [v] (d.setInstallationLocation n v) ∧
    Sets d n 0x82 [0, 0, v, 0] (d.setStandardVersion n v) ∧ d.standardVersion n = d.property n 0x82 ∧
    Sets d n 0x88 [0x41] (d.setFaultStatus n true) ∧ Sets d n 0x88 [0x42] (d.setFaultStatus n false) ∧
    ∃ r, d.setManufacturerCode b n m = .ok r ∧ Sets d n 0x8A (be 3 m.toNat) r := by
  refine ⟨setProperty_sets _ _ _ _, setProperty_sets _ _ _ _, setProperty_sets _ _ _ _, setProperty_sets _ _ _ _, rfl,
    setProperty_sets _ _ _ _, setProperty_sets _ _ _ _, d.setProperty n 0x8A (be 3 m.toNat), ?_, setProperty_sets _ _ _ _⟩
  unfold Device.setManufacturerCode
  rw [C11_fromU32 b m (List.replicate 3 0) (by simp)]
  rfl

/-- C54: on a new device (any code of three bytes except the node profile's) all of them succeed. -/
theorem C54_new_device_setters (b : Build) (ω₀ : HashOrder) (db : Database) (hdb : standardDb b ω₀ = .ok db)
    (uuid : Nat → List UInt8) (hu : ∀ i, (uuid i).length = 16) (ω : HashOrder) (code : UInt32) (app : S)
    (hlt : code.toNat < 2 ^ 24) (hprof : code ≠ profileCode) (s : Bool) (v : UInt8) (m : UInt32) :
    ∃ d n, Device.new b db uuid ω code app = .ok (d, n) ∧
      (d.setOperatingStatus n s).1 = true ∧ (d.setInstallationLocation n v).1 = true ∧
      (d.setStandardVersion n v).1 = true ∧ (d.setFaultStatus n s).1 = true ∧
      ∃ n', d.setManufacturerCode b n m = .ok (true, n') := by
  obtain ⟨n, np, o, h1, h2, h3, h4, _, hi⟩ := C20_new_device b ω₀ db hdb uuid hu ω code app
  obtain ⟨⟨_, h80, _⟩, ⟨_, h88, _⟩, ⟨_, h8A, _⟩, ⟨_, h81, _⟩, ⟨_, h82, _⟩, _⟩ := hi
  have hcode : o.code = code := UInt32.toNat.inj (by rw [h4]; omega)
  have hhas : ∀ c p, o.findProperty c = some p → ∀ data, ((⟨code⟩ : Device).setProperty n c data).1 = true := by
    intro c p hc data
    rw [(C54_property_access ⟨code⟩ n c data).1]
    refine ⟨[np], o, [], h2, ?_, hcode, ?_⟩
    · intro x hx; rw [List.mem_singleton.mp hx, h3]; exact fun h => hprof h.symm
    · rw [hc]; rfl
  refine ⟨⟨code⟩, n, h1, hhas _ _ h80 _, hhas _ _ h81 _, hhas _ _ h82 _, hhas _ _ h88 _, ?_⟩
  have hr : (⟨code⟩ : Device).setManufacturerCode b n m = .ok ((⟨code⟩ : Device).setProperty n 0x8A (be 3 m.toNat)) := by
    unfold Device.setManufacturerCode
    rw [C11_fromU32 b m (List.replicate 3 0) (by simp)]
    rfl
  exact ⟨_, by rw [hr, ← hhas 0x8A _ h8A (be 3 m.toNat)]⟩

/-! ## C22 -/

/-- The part of C22 that holds: after any history of a new node, its objects are the node profile and the
added ones in insertion order, and the node profile's self-node properties are the ones computed from
them by `profileData` (whatever the application and the network do, as long as nobody writes into the node
profile directly). Reading them through the API. Partial: the numbers are reduced modulo 256, and the class
properties count objects, not classes. -/
theorem C22_profile_partial (b : Build) (ω₀ : HashOrder) (db : Database) (hdb : standardDb b ω₀ = .ok db)
    (uuid₁ uuid₂ : List UInt8) (hu₁ : uuid₁.length = 16) (hu₂ : uuid₂.length = 16) (ω : HashOrder) (app : S)
    (ops : List (Op S)) (hops : ∀ op ∈ ops, ProfileSafe op) (n₀ n : Node S) (outs : List Out)
    (hnew : Node.new b db uuid₁ uuid₂ ω app = .ok n₀) (hrun : n₀.run b ops = .ok (n, outs)) :
    n.objects.map Object.code = profileCode :: addedCodes ops ∧
    ∀ c d, profileData (profileCode :: addedCodes ops) (addedCodes ops).length c = some d →
      n.property profileCode c = some d := by
  obtain ⟨n₁, h1, hinv, hcodes, _⟩ := newNode_inv hdb hu₁ hu₂ ω app
  rw [hnew] at h1
  simp only [Res.ok.injEq] at h1
  subst h1
  obtain ⟨h2, h3⟩ := run_inv hinv hops hrun
  rw [hcodes] at h3
  refine ⟨h3, ?_⟩
  intro c d hd
  obtain ⟨np, ds, ho, hc, _, hdesc⟩ := h2.shape
  rw [h3] at hdesc
  obtain ⟨p, hp, hpd⟩ := hdesc c d (by simpa using hd)
  have hf : findObject n.objects profileCode = some np := by
    rw [ho]; exact findObject_append (pre := []) (by simp) hc
  unfold Node.property
  have hp' : np.findProperty c = some p := hp
  simp only [hf, hp', hpd]

theorem deviceCodes_eq {l : List UInt32} (h : ∀ c ∈ l, c ≠ profileCode) : deviceCodes (profileCode :: l) = l := by
  unfold deviceCodes
  simp only [ne_eq, not_true_eq_false, decide_false, List.filter_cons]
  rw [if_neg (by simp)]
  exact List.filter_eq_self.mpr (by simpa using h)

/-- The part of C22 that holds, in full for up to 254 devices: the instance lists hold the number and the
codes of the devices in insertion order, 0xD3 their number, 0xD4 and 0xD7 the number of all objects
(including the node profile) and the class part of their codes. -/
theorem C22_instance_lists_partial (b : Build) (ω₀ : HashOrder) (db : Database) (hdb : standardDb b ω₀ = .ok db)
    (uuid₁ uuid₂ : List UInt8) (hu₁ : uuid₁.length = 16) (hu₂ : uuid₂.length = 16) (ω : HashOrder) (app : S)
    (ops : List (Op S)) (hops : ∀ op ∈ ops, ProfileSafe op) (n₀ n : Node S) (outs : List Out)
    (hnew : Node.new b db uuid₁ uuid₂ ω app = .ok n₀) (hrun : n₀.run b ops = .ok (n, outs))
    (hlen : (addedCodes ops).length ≤ 254) (hdev : ∀ c ∈ addedCodes ops, c ≠ profileCode) :
    n.property profileCode 0xD3 = some (be 3 (addedCodes ops).length) ∧
    n.property profileCode 0xD5 =
      some (UInt8.ofNat (addedCodes ops).length :: (addedCodes ops).flatMap (fun x => be 3 x.toNat)) ∧
    n.property profileCode 0xD6 = n.property profileCode 0xD5 ∧
    n.property profileCode 0xD4 = some (be 2 ((addedCodes ops).length + 1)) ∧
    n.property profileCode 0xD7 =
      some (UInt8.ofNat ((addedCodes ops).length + 1) ::
        (profileCode :: addedCodes ops).flatMap (fun x => be 2 (x.toNat / 256))) := by
  obtain ⟨_, h⟩ := C22_profile_partial b ω₀ db hdb uuid₁ uuid₂ hu₁ hu₂ ω app ops hops n₀ n outs hnew hrun
  have hD : ∀ c, (c = 0xD5 ∨ c = 0xD6) → profileData (profileCode :: addedCodes ops) (addedCodes ops).length c =
      some (UInt8.ofNat (addedCodes ops).length :: (addedCodes ops).flatMap (fun x => be 3 x.toNat)) := by
    rintro c (rfl | rfl) <;>
    · show some (_ :: (deviceCodes (profileCode :: addedCodes ops)).flatMap _) = _
      rw [deviceCodes_eq hdev]
  have h5 := h 0xD5 _ (hD _ (Or.inl rfl))
  have h6 := h 0xD6 _ (hD _ (Or.inr rfl))
  refine ⟨h 0xD3 _ ?_, h5, h6.trans h5.symm, h 0xD4 _ ?_, h 0xD7 _ rfl⟩
  · show some (be 3 (_ % 256)) = _
    rw [Nat.mod_eq_of_lt (by omega)]
  · show some (be 2 (_ % 256)) = _
    rw [Nat.mod_eq_of_lt (by omega)]

/-- Adding objects to a new node never panics. -/
theorem C22_add_never_panics (b : Build) (ω₀ : HashOrder) (db : Database) (hdb : standardDb b ω₀ = .ok db)
    (uuid₁ uuid₂ : List UInt8) (hu₁ : uuid₁.length = 16) (hu₂ : uuid₂.length = 16) (ω : HashOrder) (app : S)
    (objs : List Object) (hk : ∀ o ∈ objs, KeysOk o) :
    ∃ n₀ n, Node.new b db uuid₁ uuid₂ ω app = .ok n₀ ∧ n₀.run b (objs.map Op.addObject) = .ok (n, []) := by
  obtain ⟨n₁, h1, hinv, _⟩ := newNode_inv hdb hu₁ hu₂ ω app
  have key : ∀ (objs : List Object), (∀ o ∈ objs, KeysOk o) → ∀ n : Node S, ProfileInv n →
      ∃ n', n.run b (objs.map Op.addObject) = .ok (n', []) := by
    intro objs
    induction objs with
    | nil => intro _ n _; exact ⟨n, rfl⟩
    | cons o os ih =>
      intro hk n hi
      obtain ⟨np, ds, ho, hc, _⟩ := hi.shape
      let n₂ : Node S := { n with objects := (n.objects ++ [o]) }
      have hu := updateNodeProfile_eq b n₂ (np := np) (ds := ds ++ [o])
        (show n.objects ++ [o] = _ by rw [ho]; rfl) hc
      obtain ⟨n₃, hstep⟩ : ∃ n₃, n.step b (.addObject o) = .ok (n₃, []) := by
        have hadd : n.addObject b o = n₂.updateNodeProfile b := rfl
        rw [hu] at hadd
        cases h : n.addObject b o with
        | panic => rw [hadd] at h; simp at h
        | ok r => exact ⟨r, by simp only [Node.step, h, Res.bind_ok, Res.pure_eq]⟩
      have hi' := (step_inv hi (show ProfileSafe (.addObject o) from hk o (by simp)) hstep).1
      obtain ⟨n', hn'⟩ := ih (fun x hx => hk x (by simp [hx])) _ hi'
      refine ⟨n', ?_⟩
      show Res.bind (n.step b (.addObject o)) _ = _
      rw [hstep]
      show Res.bind (Node.run b _ _) _ = _
      rw [hn']
      rfl
  obtain ⟨n', hn'⟩ := key objs hk n₁ hinv
  exact ⟨n₁, n', h1, hn'⟩

theorem addedCodes_objs (objs : List Object) : addedCodes (objs.map (Op.addObject (S := S))) = objs.map Object.code := by
  unfold addedCodes
  rw [List.filterMap_map]
  induction objs with
  | nil => rfl
  | cons o os ih => simp [List.filterMap_cons] at ih ⊢; exact ih

theorem fromCode_keysOk (c : UInt32) : KeysOk (Object.fromCode c) := by
  intro k p hp
  simp [Object.fromCode, Object.new, Object.setCode] at hp

theorem fromCode_code {c : UInt32} (h : c.toNat < 2 ^ 24) : (Object.fromCode c).code = c := by
  apply UInt32.toNat.inj
  have := (C14_code_setCode Object.new c).1
  unfold Object.fromCode
  rw [this]; omega

/-- C22 fails for 256 devices or more: with 256 devices the instance lists and 0xD3 say that there are none,
although the lists hold 256 codes. -/
theorem C22_fails_256_devices (b : Build) (ω₀ : HashOrder) (db : Database) (hdb : standardDb b ω₀ = .ok db)
    (uuid₁ uuid₂ : List UInt8) (hu₁ : uuid₁.length = 16) (hu₂ : uuid₂.length = 16) (ω : HashOrder) (app : S) :
    ∃ (objs : List Object) (n₀ n : Node S), objs.length = 256 ∧ (∀ o ∈ objs, o.code ≠ profileCode) ∧
      Node.new b db uuid₁ uuid₂ ω app = .ok n₀ ∧ n₀.run b (objs.map Op.addObject) = .ok (n, []) ∧
      n.property profileCode 0xD3 = some [0, 0, 0] ∧
      ∃ l, l.length = 768 ∧ n.property profileCode 0xD5 = some (0 :: l) ∧ n.property profileCode 0xD6 = some (0 :: l) := by
  have hcode : (Object.fromCode 0x029001).code = 0x029001 := fromCode_code (by decide)
  obtain ⟨n₀, n, h1, h2⟩ := C22_add_never_panics b ω₀ db hdb uuid₁ uuid₂ hu₁ hu₂ ω app
    (List.replicate 256 (Object.fromCode 0x029001))
    (fun o ho => by rw [List.eq_of_mem_replicate ho]; exact fromCode_keysOk _)
  obtain ⟨_, h3⟩ := C22_profile_partial b ω₀ db hdb uuid₁ uuid₂ hu₁ hu₂ ω app _ (by
    intro op hop
    obtain ⟨o, ho, rfl⟩ := List.mem_map.mp hop
    rw [List.eq_of_mem_replicate ho]; exact fromCode_keysOk _) n₀ n [] h1 h2
  rw [addedCodes_objs, List.map_replicate, hcode] at h3
  rw [List.length_replicate] at h3
  have hD : deviceCodes (profileCode :: List.replicate 256 0x029001) = List.replicate 256 0x029001 :=
    deviceCodes_eq (fun c hc => by rw [List.eq_of_mem_replicate hc]; decide)
  refine ⟨_, n₀, n, List.length_replicate, ?_, h1, h2, h3 0xD3 _ rfl,
    (List.replicate 256 (0x029001 : UInt32)).flatMap (fun x => be 3 x.toNat), ?_, ?_, ?_⟩
  · intro o ho
    rw [List.eq_of_mem_replicate ho, hcode]; decide
  · have hlen : ∀ l : List UInt32, (l.flatMap (fun x => be 3 x.toNat)).length = l.length * 3 := by
      intro l
      induction l with
      | nil => rfl
      | cons x xs ih => rw [List.flatMap_cons, List.length_append, ih, be_length, List.length_cons]; omega
    rw [hlen, List.length_replicate]
  · have := h3 0xD5 _ rfl
    rw [hD] at this; exact this
  · have := h3 0xD6 _ rfl
    rw [hD] at this; exact this

/-- C22 fails for the class properties: a node with two instances of one class says that it has three
classes and lists that class twice (and the node profile's class, which the instance lists leave out). -/
theorem C22_fails_class_list (b : Build) (ω₀ : HashOrder) (db : Database) (hdb : standardDb b ω₀ = .ok db)
    (uuid₁ uuid₂ : List UInt8) (hu₁ : uuid₁.length = 16) (hu₂ : uuid₂.length = 16) (ω : HashOrder) (app : S) :
    ∃ (n₀ n : Node S), Node.new b db uuid₁ uuid₂ ω app = .ok n₀ ∧
      n₀.run b [.addObject (Object.fromCode 0x029001), .addObject (Object.fromCode 0x029002)] = .ok (n, []) ∧
      n.property profileCode 0xD4 = some [0, 3] ∧
      n.property profileCode 0xD7 = some [3, 0x0E, 0xF0, 0x02, 0x90, 0x02, 0x90] := by
  obtain ⟨n₀, n, h1, h2⟩ := C22_add_never_panics b ω₀ db hdb uuid₁ uuid₂ hu₁ hu₂ ω app
    [Object.fromCode 0x029001, Object.fromCode 0x029002]
    (fun o ho => by
      simp only [List.mem_cons, List.not_mem_nil, or_false] at ho
      rcases ho with rfl | rfl <;> exact fromCode_keysOk _)
  obtain ⟨_, h3⟩ := C22_profile_partial b ω₀ db hdb uuid₁ uuid₂ hu₁ hu₂ ω app _ (by
    intro op hop
    simp only [List.map_cons, List.map_nil, List.mem_cons, List.not_mem_nil, or_false] at hop
    rcases hop with rfl | rfl <;> exact fromCode_keysOk _) n₀ n [] h1 h2
  rw [addedCodes_objs] at h3
  exact ⟨n₀, n, h1, h2, h3 0xD4 _ (by decide +kernel), h3 0xD7 _ (by decide +kernel)⟩

/-- C22 fails when the code of an object is changed in place: whatever the two codes, the node profile goes on listing
the old one. -/
theorem C22_fails_code_change (b : Build) (ω₀ : HashOrder) (db : Database) (hdb : standardDb b ω₀ = .ok db)
    (uuid₁ uuid₂ : List UInt8) (hu₁ : uuid₁.length = 16) (hu₂ : uuid₂.length = 16) (ω : HashOrder) (app : S)
    (c c' : UInt32) (hc : c.toNat < 2 ^ 24) (hc' : c'.toNat < 2 ^ 24) (hp : c ≠ profileCode) :
    ∃ (n₀ n : Node S), Node.new b db uuid₁ uuid₂ ω app = .ok n₀ ∧
      n₀.run b [.addObject (Object.fromCode c), .edit c (fun o => o.setCode c')] = .ok (n, []) ∧
      n.objects.map Object.code = [profileCode, c'] ∧
      n.property profileCode 0xD5 = some (1 :: be 3 c.toNat) ∧ n.property profileCode 0xD6 = some (1 :: be 3 c.toNat) := by
  obtain ⟨n₀, n, h1, h2⟩ := C22_add_never_panics b ω₀ db hdb uuid₁ uuid₂ hu₁ hu₂ ω app
    [Object.fromCode c] (fun o ho => by rw [List.mem_singleton.mp ho]; exact fromCode_keysOk _)
  have hsafe : ∀ op ∈ [Object.fromCode c].map (Op.addObject (S := S)), ProfileSafe op := by
    intro op hop
    rw [List.mem_singleton.mp hop]; exact fromCode_keysOk _
  have hcode : addedCodes ([Object.fromCode c].map (Op.addObject (S := S))) = [c] := by
    rw [addedCodes_objs]; simp [fromCode_code hc]
  have hlists := C22_instance_lists_partial b ω₀ db hdb uuid₁ uuid₂ hu₁ hu₂ ω app _ hsafe n₀ n [] h1 h2
    (by rw [hcode]; simp) (by rw [hcode]; simpa using hp)
  obtain ⟨hcodes, _⟩ := C22_profile_partial b ω₀ db hdb uuid₁ uuid₂ hu₁ hu₂ ω app _ hsafe n₀ n [] h1 h2
  rw [hcode] at hlists hcodes
  obtain ⟨np, l, ho, hnp, hcodes⟩ := List.map_eq_cons_iff.mp hcodes
  obtain ⟨d, l', rfl, hd, hcodes⟩ := List.map_eq_cons_iff.mp hcodes
  rw [List.map_eq_nil_iff] at hcodes
  subst hcodes
  · have hne : (np.code == c) = false := by
      rw [beq_eq_false_iff_ne, hnp]; exact fun e => hp e.symm
    have hupd : updateObject c (fun o => o.setCode c') n.objects = [np, d.setCode c'] := by
      rw [ho]; simp only [updateObject, hne, hd, beq_self_eq_true, Bool.false_eq_true, if_false, if_true]
    have hsame : ∀ k, (n.editObject c (fun o => o.setCode c')).property profileCode k = n.property profileCode k := by
      intro k
      have f1 : findObject (n.editObject c (fun o => o.setCode c')).objects profileCode = some np := by
        unfold Node.editObject; simp only [hupd]
        exact findObject_append (pre := []) (by simp) hnp
      have f2 : findObject n.objects profileCode = some np := by
        rw [ho]; exact findObject_append (pre := []) (by simp) hnp
      unfold Node.property
      rw [f1, f2]
    refine ⟨n₀, n.editObject c (fun o => o.setCode c'), h1, ?_, ?_, ?_, ?_⟩
    · rw [show ([.addObject (Object.fromCode c), .edit c (fun o => o.setCode c')] : List (Op S)) =
        [Object.fromCode c].map Op.addObject ++ [.edit c (fun o => o.setCode c')] from rfl]
      exact run_append.mpr ⟨n, [], [], h2, rfl, rfl⟩
    · show (updateObject c (fun o => o.setCode c') n.objects).map Object.code = _
      rw [hupd]
      have : (d.setCode c').code = c' := by
        apply UInt32.toNat.inj
        rw [(C14_code_setCode d c').1]; omega
      simp [hnp, this]
    · rw [hsame, hlists.2.1]; simp
    · rw [hsame, hlists.2.2.1, hlists.2.1]; simp

/-- Non-vacuity of C22: three devices are added (one of them after a start attempt without network and writes
to another object). -/
example : (∀ op ∈ ([.addObject (Object.fromCode 0x029001), .addObject (Object.fromCode 0x028801),
      .setProperty 0x029001 0x80 [0x30], .start [] [] allOk, .edit 0x029001 (fun o => (o.setPropertyData 0x80 [0x31]).2),
      .addObject (Object.fromCode 0x029002)] : List (Op Unit)),
      ProfileSafe op) ∧
    addedCodes ([.addObject (Object.fromCode 0x029001), .addObject (Object.fromCode 0x028801),
      .setProperty 0x029001 0x80 [0x30], .start [] [] allOk, .edit 0x029001 (fun o => (o.setPropertyData 0x80 [0x31]).2),
      .addObject (Object.fromCode 0x029002)] : List (Op Unit)) =
      [0x029001, 0x028801, 0x029002] := by
  refine ⟨?_, by decide +kernel⟩
  intro op hop
  simp only [List.mem_cons, List.not_mem_nil, or_false] at hop
  rcases hop with rfl | rfl | rfl | rfl | rfl | rfl
  · exact fromCode_keysOk _
  · exact fromCode_keysOk _
  · show (0x029001 : UInt32) ≠ profileCode; decide
  · trivial
  · refine ⟨by decide, fun o hk hc => ⟨Object.setPropertyData_keysOk hk _ _, ?_⟩⟩
    rw [Node.code_of_sameId (Object.setPropertyData_sameId o _ _)]; exact hc
  · exact fromCode_keysOk _

end Uecho
