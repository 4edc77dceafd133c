import Verif.Lemmas.Standard
import Verif.Props.Transport
import Verif.Props.Basic
import Verif.Spec.Profile
/-!
# The node profile
-/
namespace Uecho
open Spec
variable {S : Type}

theorem instanceBytes_eq (c : UInt32) : instanceBytes c = be 3 c.toNat := by
  have h := C14_code_setCode Object.new c
  show [(Object.new.setCode c).classGroupCode, (Object.new.setCode c).classCode,
    (Object.new.setCode c).instanceCode] = be 3 c.toNat
  simp only [be, List.nil_append, List.cons_append]
  refine List.cons_eq_cons.mpr ⟨UInt8.toNat.inj ?_, List.cons_eq_cons.mpr ⟨UInt8.toNat.inj ?_,
    List.cons_eq_cons.mpr ⟨UInt8.toNat.inj ?_, rfl⟩⟩⟩
  · rw [h.2.1, UInt8.toNat_ofNat']; omega
  · rw [h.2.2.1, UInt8.toNat_ofNat']; omega
  · rw [h.2.2.2.1, UInt8.toNat_ofNat']; omega

theorem classBytes_eq (c : UInt32) : classBytes c = be 2 (c.toNat / 256) := by
  have h := C14_code_setCode Object.new c
  show [(Object.new.setCode c).classGroupCode, (Object.new.setCode c).classCode] = be 2 (c.toNat / 256)
  simp only [be, List.nil_append, List.cons_append]
  refine List.cons_eq_cons.mpr ⟨UInt8.toNat.inj ?_, List.cons_eq_cons.mpr ⟨UInt8.toNat.inj ?_, rfl⟩⟩
  · rw [h.2.1, UInt8.toNat_ofNat']; omega
  · rw [h.2.2.1, UInt8.toNat_ofNat']; omega

theorem setIntIfPresent_eq (b : Build) (o : Object) (c : UInt8) (v : UInt32) (size : Nat) (h : size ≤ 4) :
    o.setIntIfPresent b c v size = .ok (o.setPropertyData c (be size v.toNat)).2 := by
  unfold Object.setIntIfPresent Object.setPropertyData
  cases hp : o.properties c with
  | none => rfl
  | some p =>
    have := C11_fromU32 b v (List.replicate size 0) (by simpa using h)
    simp only [Property.setIntData, this, Res.bind_ok, Res.pure_eq, List.length_replicate]

theorem classList_eq (codes : List UInt32) (acc : List UInt8) :
    codes.foldl (fun acc c => acc ++ classBytes c) acc =
      acc ++ codes.flatMap (fun x => be 2 (x.toNat / 256)) := by
  induction codes generalizing acc with
  | nil => simp
  | cons c cs ih => rw [List.foldl_cons, ih, classBytes_eq]; simp

theorem instanceList_eq (codes : List UInt32) (acc : List UInt8) :
    codes.foldl (fun acc c => if c = nodeProfileCode then acc else acc ++ instanceBytes c) acc =
      acc ++ (deviceCodes codes).flatMap (fun x => be 3 x.toNat) := by
  induction codes generalizing acc with
  | nil => simp [deviceCodes]
  | cons c cs ih =>
    rw [List.foldl_cons, ih]
    by_cases hc : c = nodeProfileCode
    · have : c = profileCode := hc
      simp [deviceCodes, hc, this]
      rfl
    · have : c ≠ profileCode := hc
      rw [if_neg hc, instanceBytes_eq]
      simp [deviceCodes, this]

theorem nodeProfileUpdate_eq (b : Build) (obj : Object) (codes : List UInt32) (h : codes ≠ []) :
    nodeProfileUpdate b obj codes = .ok (mapProperties (profileProperty codes (codes.length - 1)) obj) := by
  have hl : codes.length ≠ 0 := by simpa using h
  obtain ⟨k, hk⟩ : ∃ k, codes.length = k + 1 := ⟨codes.length - 1, by omega⟩
  have h1 : UInt8.ofNat (codes.length + (2 ^ 64 - 1)) = UInt8.ofNat k := by
    apply UInt8.toNat.inj
    rw [UInt8.toNat_ofNat', UInt8.toNat_ofNat', hk]
    omega
  unfold nodeProfileUpdate
  simp only [hl, false_and, if_false, Res.pure_eq, Res.bind_ok, classList_eq, instanceList_eq, h1]
  rw [setIntIfPresent_eq _ _ _ _ _ (by omega), Res.bind_ok, setIntIfPresent_eq _ _ _ _ _ (by omega), Res.bind_ok]
  congr 1
  simp only [setPropertyData_mapProperties, mapProperties, Option.map_map, hk, Nat.add_sub_cancel]
  congr 1
  funext c
  congr 1
  funext p
  simp only [Function.comp, profileProperty, profileData]
  have e1 : (UInt8.ofNat k).toUInt32.toNat = k % 256 := by simp
  have e2 : (UInt8.ofNat (k + 1)).toUInt32.toNat = (k + 1) % 256 := by simp
  rw [e1, e2]
  by_cases c3 : c = 0xD3
  · subst c3; simp
  by_cases c4 : c = 0xD4
  · subst c4; simp
  by_cases c5 : c = 0xD5
  · subst c5; simp
  by_cases c6 : c = 0xD6
  · subst c6; simp
  by_cases c7 : c = 0xD7
  · subst c7; simp
  simp [c3, c4, c5, c6, c7]

end Uecho
