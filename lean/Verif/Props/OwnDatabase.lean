import Verif.Spec.OwnDatabase
import Verif.Props.Database
import Verif.Props.Device
/-!
# C81: a database extended by the application
-/
namespace Uecho
open Spec

theorem extended_eq (db : Database) (ops : List DbOp) :
    extended db ops = ⟨db.manufactures ++ addedManufactures ops, db.objects ++ addedObjects ops⟩ := by
  induction ops generalizing db with
  | nil => simp [extended, addedManufactures, addedObjects]
  | cons op ops ih =>
    have : extended db (op :: ops) = extended (match op with
      | .manufacture m => db.addManufacture m
      | .object o => db.addObject o) ops := rfl
    rw [this, ih]
    cases op <;> simp [Database.addManufacture, Database.addObject, addedManufactures, addedObjects]

theorem find_isFirst {α : Type} {p : α → Bool} {l : List α} {x : α} :
    l.find? p = some x ↔ IsFirst (fun y => p y = true) l x := by
  rw [List.find?_eq_some_iff_append]
  constructor
  · rintro ⟨h, as, bs, rfl, h'⟩
    exact ⟨as, bs, rfl, h, fun y hy => by simpa using h' y hy⟩
  · rintro ⟨as, bs, rfl, h, h'⟩
    exact ⟨h, as, bs, rfl, fun y hy => by simpa using h' y hy⟩

theorem class_test (o : Object) (code : UInt32) :
    (o.code == (code &&& 0xFFFF00)) = true ↔ classPart o.code = classPart code ∧ instancePart o.code = 0 := by
  rw [beq_iff_eq]
  have hlt := code_lt o
  unfold classPart instancePart
  constructor
  · intro h
    have := congrArg UInt32.toNat h
    rw [mask_code] at this
    constructor <;> omega
  · rintro ⟨h1, h2⟩
    apply UInt32.toNat.inj
    rw [mask_code]; omega

/-- C81: looking up a manufacturer in an extended database finds the first entry with that code, in the order of the
original entries and then of the calls; entries are never lost or changed by later calls. -/
theorem C81_manufacturers (db : Database) (ops : List DbOp) (code : UInt32) :
    (∀ m, (extended db ops).findManufacture code = some m ↔
      IsFirst (fun x => x.code = code) (db.manufactures ++ addedManufactures ops) m) ∧
    ((extended db ops).findManufacture code = none ↔
      ∀ m ∈ db.manufactures ++ addedManufactures ops, m.code ≠ code) := by
  unfold Database.findManufacture
  rw [extended_eq]
  constructor
  · intro m
    rw [find_isFirst]
    simp only [beq_iff_eq]
  · rw [List.find?_eq_none]
    simp

/-- C81: looking up an object by any code finds the first object of the same class that has instance byte 0, in the order
of the original objects and then of the calls. -/
theorem C81_objects (db : Database) (ops : List DbOp) (code : UInt32) :
    (∀ o, (extended db ops).findObject code = some o ↔
      IsFirst (fun x => classPart x.code = classPart code ∧ instancePart x.code = 0) (db.objects ++ addedObjects ops) o) ∧
    ((extended db ops).findObject code = none ↔
      ∀ o ∈ db.objects ++ addedObjects ops, classPart o.code = classPart code → instancePart o.code ≠ 0) := by
  unfold Database.findObject
  rw [extended_eq]
  constructor
  · intro o
    rw [find_isFirst]
    simp only [class_test]
  · rw [List.find?_eq_none]
    simp only [class_test]
    constructor
    · intro h o ho h1 h2; exact h o ho ⟨h1, h2⟩
    · intro h o ho h1; exact h o ho h1.1 h1.2

/-- C81 (partial): an object the application adds to its database is found afterwards under its code and under the code
of every instance of its class, whatever is added before and after, provided that its instance byte is 0 and that no
object of that class with instance byte 0 was there before. Missing: the two conditions, see `C81_fails_instance` and
`C81_fails_standard`. -/
theorem C81_added_found_partial (db : Database) (pre post : List DbOp) (o : Object) (hi : instancePart o.code = 0)
    (hn : ∀ x ∈ db.objects ++ addedObjects pre, classPart x.code = classPart o.code → instancePart x.code ≠ 0)
    (code : UInt32) (hc : classPart code = classPart o.code) :
    (extended db (pre ++ .object o :: post)).findObject code = some o := by
  refine ((C81_objects db _ code).1 o).mpr ⟨db.objects ++ addedObjects pre, addedObjects post, ?_, ⟨hc.symm, hi⟩, ?_⟩
  · simp [addedObjects, List.filterMap_append]
  · rintro y hy ⟨h1, h2⟩
    exact hn y hy (by rw [h1, hc]) h2

/-- C81: a manufacturer the application adds is found unless its code was taken; a second entry with the same code is
never returned. -/
theorem C81_added_manufacturer (db : Database) (pre post : List DbOp) (m : Manufacture) :
    (extended db (pre ++ .manufacture m :: post)).findManufacture m.code =
      ((extended db pre).findManufacture m.code).or (some m) := by
  unfold Database.findManufacture
  rw [extended_eq, extended_eq]
  have : addedManufactures (pre ++ .manufacture m :: post) = addedManufactures pre ++ m :: addedManufactures post := by
    simp [addedManufactures, List.filterMap_append]
  simp only [this]
  rw [← List.append_assoc, List.find?_append, List.find?_cons_of_pos (by simp)]

/-- C81 is false for objects with a non-zero instance byte: in no database, after no calls, is such an object ever found,
under any code. -/
theorem C81_fails_instance (db : Database) (ops : List DbOp) (o : Object) (h : instancePart o.code ≠ 0) (code : UInt32) :
    (extended db ops).findObject code ≠ some o := by
  intro hf
  obtain ⟨_, _, _, ⟨_, h2⟩, _⟩ := ((C81_objects db ops code).1 o).mp hf
  exact h h2

/-- C81 is false for the classes of the standard: whatever the application adds, looking up an object finds the same as
before. -/
theorem C81_fails_standard (b : Build) (ω : HashOrder) (db : Database) (hdb : standardDb b ω = .ok db) (ops : List DbOp)
    (code : UInt32) (d : ClassDef) (hd : d ∈ Table.classes) (hc : classCode d = classPart code * 256) :
    (extended db ops).findObject code = db.findObject code ∧ (db.findObject code).isSome := by
  obtain ⟨o, ho, _⟩ := (C21_find_object b ω db hdb code).2.2 d hd hc
  constructor
  · rw [ho]
    unfold Database.findObject at ho ⊢
    rw [extended_eq, List.find?_append, ho]; rfl
  · rw [ho]; rfl

/-- The conditions of the partial theorem can be met: an object of a class of its own, added to the standard database
after an object that is in the way of nothing. -/
example : ∃ db, standardDb .dev .ascending = .ok db ∧
    (extended db ([.object (Object.fromCode 0x0F0102)] ++ .object (Object.fromCode 0x0F0100) :: [])).findObject 0x0F0155 =
      some (Object.fromCode 0x0F0100) := by
  obtain ⟨db, h, _, hl, hr⟩ := C21_builds .dev .ascending
  refine ⟨db, h, C81_added_found_partial db _ [] (Object.fromCode 0x0F0100) (by decide +kernel) ?_ _ (by decide +kernel)⟩
  intro x hx hcl
  rcases List.mem_append.mp hx with hx | hx
  · obtain ⟨i, hi, rfl⟩ := List.mem_iff_getElem.mp hx
    have hi' : i < Table.classes.length := hl ▸ hi
    have hcode := (hr i hi hi').1.1
    exfalso
    have hall : ∀ d ∈ Table.classes, classCode d / 256 % 65536 ≠ 0x0F01 := by
      have : Table.classes.all (fun d => decide (classCode d / 256 % 65536 ≠ 0x0F01)) = true := by decide +kernel
      intro d hd
      simpa using List.all_eq_true.mp this d hd
    apply hall _ (List.getElem_mem hi')
    have e : classPart (Object.fromCode 0x0F0100).code = 0x0F01 := by decide +kernel
    rw [e] at hcl
    unfold classPart at hcl
    rw [hcode] at hcl
    exact hcl
  · have : x = Object.fromCode 0x0F0102 := by simpa [addedObjects] using hx
    rw [this]; decide +kernel

/-- The accessors of a manufacturer return what was last set. -/
theorem C81_manufacturer_accessors (m : Manufacture) (c : UInt32) (n : String) :
    ((m.setCode c).setName n).code = c ∧ ((m.setName n).setCode c).code = c ∧ ((m.setCode c).setName n).name = n ∧
    ((m.setName n).setCode c).name = n := ⟨rfl, rfl, rfl, rfl⟩

end Uecho
