import Verif.Spec.Database
/-!
# Specification vocabulary for a database extended by the application
-/
namespace Uecho.Spec

/-- A call that adds an entry to a `StandardDatabase` of the application. -/
inductive DbOp where
  | manufacture (m : Manufacture)
  | object (o : Object)

/-- The database after some calls. -/
def extended (db : Database) (ops : List DbOp) : Database :=
  ops.foldl (fun db op => match op with
    | .manufacture m => db.addManufacture m
    | .object o => db.addObject o) db

/-- The manufacturers added, in order. -/
def addedManufactures (ops : List DbOp) : List Manufacture :=
  ops.filterMap (fun op => match op with | .manufacture m => some m | .object _ => none)

/-- The objects added, in order. -/
def addedObjects (ops : List DbOp) : List Object :=
  ops.filterMap (fun op => match op with | .object o => some o | .manufacture _ => none)

/-- The class of an object code: its upper two of three bytes. -/
def classPart (code : UInt32) : Nat := code.toNat / 256 % 65536

/-- The instance byte of an object code. -/
def instancePart (code : UInt32) : Nat := code.toNat % 256

/-- `x` is the first element of `l` with property `p`. -/
def IsFirst {α : Type} (p : α → Prop) (l : List α) (x : α) : Prop :=
  ∃ l₁ l₂, l = l₁ ++ x :: l₂ ∧ p x ∧ ∀ y ∈ l₁, ¬ p y

end Uecho.Spec
