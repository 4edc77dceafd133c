import Verif.Spec.Transport
/-!
# Specification vocabulary for the node profile (ECHONET Lite Part II, 6.11.1)
-/
namespace Uecho.Spec

/-- Object code of the node profile. -/
def profileCode : UInt32 := 0x0EF001

/-- The codes of the objects other than the node profile. -/
def deviceCodes (codes : List UInt32) : List UInt32 := codes.filter (fun c => c ≠ profileCode)

/-- What the self-node properties of the node profile say about a node with `k` objects besides the node
profile, given the codes of all its objects: number of instances (0xD3, three bytes), number of classes
(0xD4, two bytes), instance lists (0xD5, 0xD6: number, then three bytes per object) and class list (0xD7:
number, then two bytes per class). Numbers are reduced modulo 256 because the library computes them as
bytes. -/
def profileData (codes : List UInt32) (k : Nat) (c : UInt8) : Option (List UInt8) :=
  if c = 0xD3 then some (be 3 (k % 256))
  else if c = 0xD4 then some (be 2 ((k + 1) % 256))
  else if c = 0xD5 ∨ c = 0xD6 then
    some (UInt8.ofNat k :: (deviceCodes codes).flatMap (fun x => be 3 x.toNat))
  else if c = 0xD7 then
    some (UInt8.ofNat (k + 1) :: codes.flatMap (fun x => be 2 (x.toNat / 256)))
  else none

/-- A property of the node profile after an update. -/
def profileProperty (codes : List UInt32) (k : Nat) (c : UInt8) (p : Property) : Property :=
  match profileData codes k c with
  | some d => { p with data := d }
  | none => p

/-- The node profile object `np` says that the node has exactly the objects with these codes. -/
def Describes (np : Object) (codes : List UInt32) : Prop :=
  ∀ c d, profileData codes (codes.length - 1) c = some d → ∃ p, np.properties c = some p ∧ p.data = d

end Uecho.Spec
