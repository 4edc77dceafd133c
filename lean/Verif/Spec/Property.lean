import Verif.Model.Property
import Verif.Spec.Wire
/-!
# Specification vocabulary for a `Property` value: histories of setter calls
-/
namespace Uecho.Spec

/-- A call of one of the public mutating methods of `Property`. -/
inductive PropertyOp where
  | setCode (c : UInt8)
  | setName (s : String)
  | setDataType (s : String)
  | setCapacity (n : Nat)
  | setReadAttribute (r : Rule)
  | setWriteAttribute (r : Rule)
  | setAnnoAttribute (r : Rule)
  | setData (d : List UInt8)
  | setByteData (v : UInt8)
  | setIntData (v : UInt32) (size : Nat)
  | addData (d : List UInt8)
  | addEnum (e : PropertyEnum)

/-- Run one call on the model. -/
def PropertyOp.run (b : Build) (p : Property) : PropertyOp → Res Property
  | .setCode c => .ok (p.setCode c)
  | .setName s => .ok (p.setName s)
  | .setDataType s => .ok (p.setDataType s)
  | .setCapacity n => .ok (p.setCapacity n)
  | .setReadAttribute r => .ok (p.setReadAttribute r)
  | .setWriteAttribute r => .ok (p.setWriteAttribute r)
  | .setAnnoAttribute r => .ok (p.setAnnoAttribute r)
  | .setData d => .ok (p.setData d)
  | .setByteData v => .ok (p.setByteData v)
  | .setIntData v n => p.setIntData b v n
  | .addData d => .ok (p.addData d)
  | .addEnum e => .ok (p.addEnum e)

/-- Run a history of calls. -/
def runPropertyOps (b : Build) (p : Property) (ops : List PropertyOp) : Res Property :=
  ops.foldlM (PropertyOp.run b) p

/-- The value most recently given by the calls selected by `f`, or `dflt` when there was none. -/
def lastSet {ω α : Type} (f : ω → Option α) (dflt : α) (ops : List ω) : α :=
  ((ops.filterMap f).getLast?).getD dflt

/-- What a call replaces the data with. An integer is stored big-endian on the given number of bytes. -/
def PropertyOp.replaces : PropertyOp → Option (List UInt8)
  | .setData d => some d
  | .setByteData v => some [v]
  | .setIntData v n => some (be n v.toNat)
  | _ => none

/-- What a call appends to the data. -/
def PropertyOp.appends : PropertyOp → List UInt8
  | .addData d => d
  | _ => []

/-- Integer stores with at most four bytes (wider ones panic in `dev` builds, see C12). -/
def PropertyOp.Narrow : PropertyOp → Prop
  | .setIntData _ n => n ≤ 4
  | _ => True

end Uecho.Spec
