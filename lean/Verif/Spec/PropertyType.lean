import Verif.Model.Property
/-!
# Specification vocabulary for property types
-/
namespace Uecho.Spec

/-- The type words of the machine-readable appendix and the types they denote. -/
def typeWords : List (String × PropertyType) :=
  [("number", .Number), ("state", .State), ("numericValue", .NumericValue), ("level", .Level), ("date", .Date),
   ("date-time", .DateTime), ("time", .Time), ("raw", .Raw), ("bitmap", .Bitmap), ("array", .Array),
   ("object", .Object), ("oneOf", .OneOf)]

/-- `code` is one of the values property `p` enumerates, described by `e`, and an application can use it: storing it
with the size the property declares succeeds, puts that many bytes into the property, and reading the property gives
`code` again, for which the description is found; the description is that of `code`. -/
def UsableEnum (b : Build) (p : Property) (code : UInt32) (e : PropertyEnum) : Prop :=
  e.code = code ∧ ∃ q, p.setIntData b code p.capacity = .ok q ∧ q.size = p.capacity ∧
    q.dataAsInt b = .ok code ∧ q.findEnum code = some e

end Uecho.Spec
