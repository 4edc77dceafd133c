import Verif.Props.Discovery
import Verif.Props.Property
import Verif.Props.PropertyType
import Verif.Props.RemoteNode
/-!
# Instances of the theorems about objects, the standard database, devices and discovery

Every example applies a theorem to a concrete case, with all its hypotheses proved: none of them is vacuous.
-/
namespace Uecho
open Spec

theorem addAll_codesOk {b : Build} (ps : List Property) : ∀ {ω : HashOrder} {o o' : Object},
    Object.addAll b ω o ps = .ok o' → CodesOk o → (∀ p ∈ ps, 0x80 ≤ p.code) → CodesOk o' := by
  induction ps with
  | nil =>
    intro ω o o' h hc _
    simp only [Object.addAll, Res.ok.injEq] at h
    rw [← h]; exact hc
  | cons p ps ih =>
    intro ω o o' h hc hp
    obtain ⟨o1, h1, h2⟩ := Res.bind_eq_ok.mp h
    exact ih h2 (Object.addProperty_codesOk h1 hc (hp p (by simp))) (fun q hq => hp q (by simp [hq]))

/-- The object with the given properties (see `exObject`). -/
def exObj (codes : List UInt8) : Object := match exObject codes with
  | .ok o => o
  | .panic => Object.new

theorem exObj_keysOk (codes : List UInt8) : KeysOk (exObj codes) := by
  unfold exObj
  split
  · rename_i o h
    exact Object.addAll_keysOk h (fromCode_keysOk _)
  · intro c p hp
    simp [Object.new] at hp

theorem fromCode_codesOk (c : UInt32) : CodesOk (Object.fromCode c) := by
  intro k p hp
  simp [Object.fromCode, Object.new, Object.setCode] at hp

theorem exObj_codesOk (codes : List UInt8) (h : ∀ c ∈ codes, 0x80 ≤ c) : CodesOk (exObj codes) := by
  unfold exObj
  split
  · rename_i o ho
    refine addAll_codesOk _ ho (fromCode_codesOk _) ?_
    intro p hp
    obtain ⟨c, hc, rfl⟩ := List.mem_map.mp hp
    exact h c hc
  · intro c p hp
    simp [Object.new] at hp

def ex3 : Object := exObj [0x80, 0xB0, 0x9F]
theorem ex3_keysOk : KeysOk ex3 := exObj_keysOk _
theorem ex3_codesOk : CodesOk ex3 := exObj_codesOk [0x80, 0xB0, 0x9F] (by simp)

/-! ## Objects and properties -/

example := C15_set_property_byte ex3 0xB0 5 (by decide +kernel)
example := C15_set_property_int .dev .release ex3 0xB0 0x12345678 3 (by decide) (by decide +kernel)
example := C16_add_property .dev .ascending ex3 _ (exProp 0xB1) rfl
example := C16_add_property_no_panic .dev .ascending ex3 (exProp 0xB1) (Or.inr ⟨ex3_codesOk, by decide⟩)
example := C17_history_partial .dev .ascending 0x029001 [exProp 0x80, exProp 0x9F, exProp 0xF0] (by decide)
example := C18_clone .dev .ascending ex3 _ ex3_keysOk rfl
example := C18_clone_no_panic .dev .ascending ex3 (Or.inr ex3_codesOk)
example := C18_clone_maps .dev .ascending ex3 _ ex3_keysOk ex3_codesOk rfl 0x9F Property.isReadable (by simp) _ rfl 0xB0
example := C55_enumsOk_add Property.new ⟨0x30, "on", ""⟩ (by intro c e h; simp [Property.new] at h)
example := C55_clone_any_order (Property.new.addEnum ⟨0x30, "on", ""⟩) [0x31, 0x30]
  (C55_enumsOk_add _ _ (by intro c e h; simp [Property.new] at h)) (by
    intro c hc
    simp only [Property.addEnum, Property.new] at hc
    split at hc
    · simp_all
    · simp at hc)

def exPropOps : List PropertyOp :=
  [.setCode 0x80, .addData [1], .setIntData 0x12345678 3, .setReadAttribute .Required, .addData [7]]
example := C60_no_panic .dev Property.new exPropOps (by simp [exPropOps, PropertyOp.Narrow])
example := C60_fields .dev Property.new _ exPropOps rfl
example := C60_data .dev Property.new _ [.setCode 0x80, .addData [1]] [.setReadAttribute .Required, .addData [7]]
  (.setIntData 0x12345678 3) _ rfl (by simp [PropertyOp.Narrow]) (by simp [PropertyOp.replaces]) rfl
example := C60_data_appended .dev Property.new _ [.addData [1], .setCode 0x80, .addData [7]] (by simp [PropertyOp.replaces]) rfl
example := C71_clone_no_panic .dev .ascending (builtRemote [.setAddr ⟨.v4 1, 2⟩, .addObject ex3]) (Or.inr (by
  intro o ho
  have : o ∈ [ex3] := ho
  rw [List.mem_singleton.mp this]
  exact ex3_codesOk))

/-! ## Imports from a database -/

def exStd : Object := match Object.addAll .dev .ascending ((Object.fromCode 0x029000).setClassName "lighting")
    ([0x80, 0x8A, 0x82, 0xB0, 0x9F].map exProp) with
  | .ok o => o
  | .panic => Object.new
def exStdDb : Database := ⟨[], [exStd]⟩

theorem exStd_ok : KeysOk exStd ∧ CodesOk exStd := by
  have h : Object.addAll .dev .ascending ((Object.fromCode 0x029000).setClassName "lighting")
    ([0x80, 0x8A, 0x82, 0xB0, 0x9F].map exProp) = .ok exStd := rfl
  constructor
  · refine Object.addAll_keysOk h ?_
    intro k p hp
    simp [Object.fromCode, Object.new, Object.setCode, Object.setClassName] at hp
  · refine addAll_codesOk _ h ?_ (by decide)
    intro k p hp
    simp [Object.fromCode, Object.new, Object.setCode, Object.setClassName] at hp

/-- Another hash order. -/
def exOrder : HashOrder := ⟨fun _ => allCodes.reverse, fun _ => List.reverse_perm _⟩

theorem exImports (ω : HashOrder) : ∃ r,
    (Object.fromCode 0x029003).addStandardProperties .dev exStdDb (List.replicate 16 7) ω 0x029003 = .ok r :=
  C19_no_panic .dev exStdDb (List.replicate 16 7) rfl ω (Object.fromCode 0x029003) 0x029003
    (Or.inr ⟨fromCode_codesOk _, by intro std h; rw [List.mem_singleton.mp h]; exact exStd_ok.2⟩)

example : True := by
  obtain ⟨⟨f₁, o₁⟩, h₁⟩ := exImports .ascending
  obtain ⟨⟨f₂, o₂⟩, h₂⟩ := exImports exOrder
  have hk : ∀ std ∈ exStdDb.objects, KeysOk std := by
    intro std h; rw [List.mem_singleton.mp h]; exact exStd_ok.1
  have := C19_import_result _ _ _ rfl _ _ _ _ _ hk h₁
  have := C19_order_independent _ _ _ rfl _ _ _ _ _ _ _ _ hk h₁ h₂
  have hp : ∀ (o' : Object) f ω, (Object.fromCode 0x029003).addStandardProperties .dev exStdDb (List.replicate 16 7) ω
      0x029003 = .ok (f, o') → ∃ d, o'.propertyData 0x9F = some d := by
    intro o' f ω h
    have h3 := C19_import_result _ _ _ rfl _ _ _ _ _ hk h
    simp only [show exStdDb.findObject (0x029003 &&& 0xFFFF00) = some exStd from rfl] at h3
    have h4 := (h3.2.2.2.2 0x9F).2
    have h5 : ((importTable (List.replicate 16 7) exStd.properties (Object.fromCode 0x029003).properties 0x9F).map attrsOf).isSome
        = true := by decide +kernel
    rw [← h4, Option.isSome_map] at h5
    obtain ⟨p, hp⟩ := Option.isSome_iff_exists.mp h5
    exact ⟨p.data, by simp [Object.propertyData, Object.findProperty, hp]⟩
  obtain ⟨d₁, hd₁⟩ := hp _ _ _ h₁
  obtain ⟨d₂, hd₂⟩ := hp _ _ _ h₂
  have := C19_maps_order_independent _ _ _ rfl _ _ _ _ _ _ _ _
    (by intro std h; rw [List.mem_singleton.mp h]; exact ⟨exStd_ok.1, exStd_ok.2, 0x80, _, rfl⟩)
    (fromCode_keysOk _) (fromCode_codesOk _) (by decide +kernel) h₁ h₂ 0x9F Property.isReadable (by simp) _ _ hd₁ hd₂ 0xB0
  trivial

/-! ## The standard database and new devices -/

/-- The standard database of a build with overflow checks. -/
theorem standardDb_dev : ∃ db, standardDb .dev .ascending = .ok db := let ⟨db, h, _⟩ := C21_builds .dev .ascending; ⟨db, h⟩

noncomputable def stdDb : Database := standardDb_dev.choose
theorem stdDb_eq : standardDb .dev .ascending = .ok stdDb := standardDb_dev.choose_spec

def exUuids (i : Nat) : List UInt8 := List.replicate 16 (UInt8.ofNat i)
theorem exUuids_length (i : Nat) : (exUuids i).length = 16 := List.length_replicate

example := C20_new_device .dev .ascending stdDb stdDb_eq exUuids exUuids_length exOrder 0x029101 ()
example := C20_initial_data .dev .ascending stdDb stdDb_eq exUuids exUuids_length exOrder 0x029101 () (by decide) (by decide)
example := C54_new_device_setters .dev .ascending stdDb stdDb_eq exUuids exUuids_length exOrder 0x029101 () (by decide)
  (by decide) true 0x41 0x00000B
example := C88_device_partial .dev .ascending stdDb stdDb_eq exUuids exUuids_length exOrder 0x029101 ()
example := C21_find_manufacturer .dev .ascending stdDb stdDb_eq 0x00000B
example := C21_super_class_properties 0x80 (by simp)

def exTestNode (hs : List (Handler Unit)) : Node Unit := ⟨exTransport, [ex3], 5, none, 0, hs, [.node], ()⟩
example := C54_read_after_write ⟨0x029001⟩ ⟨0x029002⟩ (exTestNode []) 0x80 0xB0 [0x31] (by decide +kernel)

/-- A conditional rule of the table (`C21_conditional_rules_prohibited`). -/
example : ∃ d ∈ Table.classes, ∃ p ∈ d.props, p.toProperty.isReadable = false ∧ (p.get = .required_c ∨ p.get = .required_o) := by
  have h : Table.classes.any (fun d => d.props.any (fun p => p.get == .required_c || p.get == .required_o)) = true := by
    decide +kernel
  obtain ⟨d, hd, h⟩ := List.any_eq_true.mp h
  obtain ⟨p, hp, h⟩ := List.any_eq_true.mp h
  have h : p.get = .required_c ∨ p.get = .required_o := by simpa using h
  exact ⟨d, hd, p, hp, C21_conditional_rules_prohibited p h, h⟩

/-! ## Nodes with devices -/

theorem exDevices_keysOk : ∀ o ∈ exDevices, KeysOk o := by
  intro o ho
  simp only [exDevices, List.mem_cons, List.not_mem_nil, or_false] at ho
  rcases ho with rfl | rfl <;> exact fromCode_keysOk _

theorem exDevices_safe : ∀ op ∈ (exDevices.map Op.addObject : List (Op Unit)), ProfileSafe op := by
  intro op hop
  obtain ⟨o, ho, rfl⟩ := List.mem_map.mp hop
  exact exDevices_keysOk o ho

/-- A new node to which two devices are added. -/
theorem exGrown : ∃ n₀ n : Node Unit, Node.new .dev stdDb (exUuids 1) (exUuids 2) .ascending () = .ok n₀ ∧
    n₀.run .dev (exDevices.map Op.addObject) = .ok (n, []) :=
  C22_add_never_panics .dev .ascending stdDb stdDb_eq (exUuids 1) (exUuids 2) rfl rfl .ascending () exDevices exDevices_keysOk

example : True := by
  obtain ⟨n₀, n, h1, h2⟩ := exGrown
  have := C22_profile_partial .dev .ascending stdDb stdDb_eq _ _ rfl rfl .ascending () _ exDevices_safe n₀ n [] h1 h2
  have := C22_instance_lists_partial .dev .ascending stdDb stdDb_eq _ _ rfl rfl .ascending () _ exDevices_safe n₀ n [] h1 h2
    (by decide +kernel) (by decide +kernel)
  obtain ⟨t, ht⟩ : ∃ t, t ∈ txs (exController.search allOk).2.2 := List.exists_mem_of_length_pos (by decide +kernel)
  have := C23_discovery .dev .ascending stdDb stdDb_eq _ _ rfl rfl .ascending () _ exDevices_safe n₀ n [] h1 h2
    (by decide +kernel) (by decide +kernel) exController allOk t ht ⟨.v4 1, 3610⟩ ⟨.v4 2, 3610⟩ exOrder allOk
  trivial

end Uecho
