import Verif.Model.Table
import Verif.Spec.Import
/-!
# Specification vocabulary for the standard database
-/
namespace Uecho.Spec

/-- The 24-bit object code (instance 0) of a class of the table. -/
def classCode (d : ClassDef) : Nat := d.grp.toNat * 65536 + d.cls.toNat * 256

/-- The access rule an attribute word of the machine-readable appendix stands for in this library. -/
def ruleOf : AttrString → Rule
  | .required => .Required
  | .optional => .Optional
  | .notApplicable | .required_c | .required_o => .Prohibited

/-- The property a table entry describes: no data yet, and for each enumeration code the last entry given
for it. -/
def declared (d : PropDef) : Property where
  code := d.code
  data := []
  name := d.name
  typ := d.typ
  capacity := d.size
  readAttr := ruleOf d.get
  writeAttr := ruleOf d.set
  annoAttr := ruleOf d.anno
  enums := fun c => d.enums.reverse.find? (fun e => e.code == c)

/-- The definition a class of the table gives for a property code: the first one listed. -/
def firstDef (d : ClassDef) (c : UInt8) : Option Property :=
  (d.props.find? (fun p => p.code == c)).map declared

/-- `o` is the object for the table entry `d`: its code, its class name, and for every property code
the first definition in the table (up to the computed property-map data). -/
def Represents (d : ClassDef) (o : Object) : Prop :=
  o.code.toNat = classCode d ∧ o.className = d.name ∧ o.name = "" ∧
  SameProps o.properties (firstDef d) ∧ KeysOk o

end Uecho.Spec

namespace Uecho
/-- The standard database (src/database.rs:51-59 with the generated tables), in a given build and for
given hash orders. -/
def standardDb (b : Build) (ω : HashOrder) : Res Database :=
  Database.build b ω Table.manufacturers Table.classes
end Uecho
