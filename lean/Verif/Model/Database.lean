import Verif.Model.Object
/-!
# `src/database.rs` and the builder functions of `src/database_mra_objects.rs`

The straight-line initialisation code is translated into the tables `Table.classes` and
`Table.manufacturers` (`Verif/Model/Table*.lean`, generated by `tools/gen_database.py`); this file
models the functions those statements call.
-/
namespace Uecho

/-- The attribute strings occurring in src/database_mra_objects.rs: "required", "optional",
"notApplicable", "required_c", "required_o" (the generator rejects any other). -/
inductive AttrString where
  | required | optional | notApplicable | required_c | required_o
deriving DecidableEq, Repr

/-- `property_string_to_attribute` (src/database_mra_objects.rs:47-55): everything but "required" and
"optional" is prohibited. -/
def propertyStringToAttribute (s : AttrString) : Rule :=
  if s = .required then .Required
  else if s = .optional then .Optional
  else .Prohibited

/-- The arguments of one `add_standard_property` call, with the enumerations pushed before it. -/
structure PropDef where
  code : UInt8
  name : String
  typ : String
  size : Nat
  get : AttrString
  set : AttrString
  anno : AttrString
  enums : List PropertyEnum

/-- One object of the table: the arguments of `create_standard_object` and its properties. -/
structure ClassDef where
  name : String
  grp : UInt8
  cls : UInt8
  props : List PropDef

/-- The property built by `Object::add_standard_property` (src/database_mra_objects.rs:20-44); the
enumerations are cloned one by one into the property. -/
def PropDef.toProperty (d : PropDef) : Property :=
  d.enums.foldl Property.addEnum
    { Property.new with
        code := d.code, name := d.name, typ := d.typ, capacity := d.size,
        readAttr := propertyStringToAttribute d.get, writeAttr := propertyStringToAttribute d.set,
        annoAttr := propertyStringToAttribute d.anno }

/-- `StandardDatabase::create_standard_object` (src/database_mra_objects.rs:58-64). -/
def ClassDef.create (d : ClassDef) : Object :=
  ((Object.new.setClassGroupCode d.grp).setClassCode d.cls).setClassName d.name

/-- The object built for one class: `create_standard_object` followed by its
`add_standard_property` calls (src/database_mra_objects.rs:20-44, 58-64). -/
def ClassDef.build (b : Build) (ω : HashOrder) (d : ClassDef) : Res Object :=
  Object.addAll b ω d.create (d.props.map PropDef.toProperty)

/-- `StandardDatabase::init_objects` (src/database_mra_objects.rs:79-36036) for a table of classes. -/
def buildObjects (b : Build) (ω : HashOrder) : List ClassDef → Res (List Object)
  | [] => .ok []
  | d :: ds => do
    let o ← d.build b (ω.sub 0)
    let os ← buildObjects b (ω.sub 1) ds
    pure (o :: os)

/-- `StandardDatabase::new` (src/database.rs:51-59) for given tables. `StandardDatabase::shared`
(61-69) is a lazily initialised static holding the result. -/
def Database.build (b : Build) (ω : HashOrder) (ms : List Manufacture) (cs : List ClassDef) :
    Res Database := do
  let os ← buildObjects b ω cs
  pure ⟨ms, os⟩

end Uecho
