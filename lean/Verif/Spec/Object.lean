import Verif.Model.Object
/-!
# Specification vocabulary for objects: the property-map format (ECHONET Lite Annex 1)
-/
namespace Uecho.Spec

/-- Annex 1: does the property map `data` list the property `c`? The first byte is the number of
properties. Below 16 (Format 1) the codes follow; otherwise (Format 2) 16 bytes follow, bit `j` of
byte `i` (counting from 0) standing for code `0x80 + 0x10 * j + i`. -/
def mapContains (data : List UInt8) (c : UInt8) : Bool :=
  match data with
  | [] => false
  | n :: rest =>
    if n.toNat < 16 then (rest.take n.toNat).contains c
    else decide (0x80 ≤ c.toNat) &&
      ((rest[c.toNat % 16]?).getD 0).toNat.testBit (c.toNat / 16 - 8)

/-- The codes of the properties of `o` selected by `sel`, in ascending order. -/
def accessible (o : Object) (sel : Property → Bool) : List UInt8 :=
  allCodes.filter (fun c => match o.properties c with
    | some p => sel p
    | none => false)

/-- The three property-map properties. -/
def isMapCode (c : UInt8) : Bool := c == 0x9D || c == 0x9E || c == 0x9F

/-- A property without its data. -/
def attrsOf (p : Property) : Property := { p with data := [] }

/-- Two property tables agree, except possibly for the data of the property maps. -/
def SameProps (f g : UInt8 → Option Property) : Prop :=
  ∀ c, (isMapCode c = false → f c = g c) ∧ (f c).map attrsOf = (g c).map attrsOf

/-- Every property is filed under its own code. True of every object as long as nobody changes a
property's code through `find_property_mut`. -/
def KeysOk (o : Object) : Prop := ∀ k p, o.properties k = some p → p.code = k

/-- All properties have a valid ECHONET property code (0x80..0xFF). -/
def CodesOk (o : Object) : Prop := ∀ k p, o.properties k = some p → 0x80 ≤ p.code

end Uecho.Spec
