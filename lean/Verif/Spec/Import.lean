import Verif.Spec.Object
/-!
# Specification of importing standard properties and of property enumerations
-/
namespace Uecho.Spec

/-- Default data of the standard properties the library initialises: manufacturer code "experiment"
(0x8A), operating status OFF (0x80), unknown location (0x81), no fault (0x88), version appendix P
(0x82), identification number from the UUID (0x83). -/
def defaultData (uuid : List UInt8) (c : UInt8) : Option (List UInt8) :=
  if c = 0x8A then some [0xFF, 0xFF, 0xFF]
  else if c = 0x80 then some [0x31]
  else if c = 0x81 then some [0x00]
  else if c = 0x88 then some [0x42]
  else if c = 0x82 then some [0, 0, 0x50, 0]
  else if c = 0x83 then some ([0xFE, 0xFF, 0xFF, 0xFF] ++ (uuid.drop 3).reverse)
  else none

/-- A property after import: its data replaced by the default data, if there is one. -/
def imported (uuid : List UInt8) (c : UInt8) (p : Property) : Property :=
  match defaultData uuid c with
  | some d => { p with data := d }
  | none => p

/-- The property table after importing the standard table `std` into `f`: a property the object already
has keeps its definition, and the properties of the standard table get their default data. -/
def importTable (uuid : List UInt8) (std f : UInt8 → Option Property) (c : UInt8) : Option Property :=
  match std c with
  | none => f c
  | some p => some (imported uuid c ((f c).getD p))

end Uecho.Spec
