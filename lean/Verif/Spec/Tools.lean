import Verif.Spec.Wire
import Verif.Spec.Request
import Verif.Spec.Controller
import Verif.Model.Tools
/-!
# Specification vocabulary for the command line tools
-/
namespace Uecho.Spec

/-- The character with code `c` is a hexadecimal digit with value `v`. -/
def HexDigit (c v : UInt8) : Prop :=
  (v.toNat < 10 ∧ c.toNat = '0'.toNat + v.toNat) ∨
  (10 ≤ v.toNat ∧ v.toNat < 16 ∧ (c.toNat = 'A'.toNat + (v.toNat - 10) ∨ c.toNat = 'a'.toNat + (v.toNat - 10)))

/-- The characters `s` are the hexadecimal notation, two digits per byte, of the bytes `l`. -/
inductive IsHex : List UInt8 → List UInt8 → Prop
  | nil : IsHex [] []
  | cons {c d x y z : UInt8} {s l : List UInt8} (hc : HexDigit c x) (hd : HexDigit d y)
      (hz : z.toNat = 16 * x.toNat + y.toNat) (h : IsHex s l) : IsHex (c :: d :: s) (z :: l)

/-- Arguments `EPC EDT EPC EDT ...` (the last EDT may be missing) and the properties they stand for. -/
inductive PropertyArgs : List (List UInt8) → List WProperty → Prop
  | nil : PropertyArgs [] []
  | last {e : List UInt8} {c : UInt8} (h : IsHex e [c]) : PropertyArgs [e] [⟨c, []⟩]
  | cons {e d : List UInt8} {c : UInt8} {data : List UInt8} {as : List (List UInt8)} {ps : List WProperty}
      (he : IsHex e [c]) (hd : IsHex d data) (h : PropertyArgs as ps) : PropertyArgs (e :: d :: as) (⟨c, data⟩ :: ps)

/-- A complete command line `program address object ESV (EPC EDT)*` of the post tool. -/
structure PostLine (parseIp : List UInt8 → Option IpAddr) (args : List (List UInt8)) (addr : IpAddr) (obj : UInt32)
    (esv : UInt8) (ps : List WProperty) : Prop where
  shape : ∃ prog a o e rest, args = prog :: a :: o :: e :: rest ∧ prog ≠ [] ∧ prog ≠ argV ∧ prog ≠ argH ∧
    a ≠ argV ∧ a ≠ argH ∧ parseIp a = some addr ∧ IsHex o (be 3 obj.toNat) ∧ IsHex e [esv] ∧ PropertyArgs rest ps
  address : addr ≠ .v4 0
  object : 0 < obj.toNat ∧ obj.toNat < 2 ^ 24
  service : ESV.fromU8 esv ≠ .Unknown
  properties : ps ≠ []

/-- Like `PropertyArgs`, except that a property code may be followed by further hexadecimal bytes. -/
inductive LooseArgs : List (List UInt8) → List WProperty → Prop
  | nil : LooseArgs [] []
  | last {e : List UInt8} {c : UInt8} {xs : List UInt8} (h : IsHex e (c :: xs)) : LooseArgs [e] [⟨c, []⟩]
  | cons {e d : List UInt8} {c : UInt8} {xs data : List UInt8} {as : List (List UInt8)} {ps : List WProperty}
      (he : IsHex e (c :: xs)) (hd : IsHex d data) (h : LooseArgs as ps) : LooseArgs (e :: d :: as) (⟨c, data⟩ :: ps)

/-- A command line of the post tool that contains an address other than 0.0.0.0, a non-zero object, a known service
and at least one property in this order. Before the first address there may be addresses 0.0.0.0, before the first
object there may be objects that are zero, and before the program's name there may be empty arguments. -/
structure LooseLine (parseIp : List UInt8 → Option IpAddr) (args : List (List UInt8)) (addr : IpAddr) (obj : UInt32)
    (esv : UInt8) (ps : List WProperty) : Prop where
  noHelp : argH ∉ args
  shape : ∃ blanks prog zeros a nulls o e rest code xs,
    args.filter (fun x => x ≠ argV) = blanks ++ prog :: (zeros ++ a :: (nulls ++ o :: e :: rest)) ∧
    (∀ x ∈ blanks, x = []) ∧ prog ≠ [] ∧ (∀ x ∈ zeros, parseIp x = some (.v4 0)) ∧ parseIp a = some addr ∧
    (∀ x ∈ nulls, ∃ bs, IsHex x bs ∧ (bs.length ≤ 4 → beVal bs = 0)) ∧
    IsHex o code ∧ (code.length ≤ 4 → obj.toNat = beVal code) ∧ IsHex e (esv :: xs) ∧ LooseArgs rest ps
  address : addr ≠ .v4 0
  object : obj ≠ 0
  service : ESV.fromU8 esv ≠ .Unknown
  properties : ps ≠ []

/-- The property codes the tools read from a standard object: those whose read access is mandatory, or, with `-a`,
all of them. `standardOf` gives the standard definition of a property of an object. -/
def wanted (standardOf : UInt32 → UInt8 → Option Property) (all : Bool) (code : UInt32) : List UInt8 :=
  allCodes.filter (fun c => match standardOf code c with
    | some p => all || p.readAttr == .Required
    | none => false)

/-- The bytes of an ASCII word. -/
def word (s : String) : List UInt8 := s.toList.map (fun c => UInt8.ofNat c.toNat)

/-- The options of the benchmark tool: `-v`, `-a`, `-n` with its argument, or anything else (like the program's
name). -/
inductive BenchOpt where
  | verbose
  | all
  | times (arg : List UInt8) (n : Int)
  | other (arg : List UInt8)
deriving DecidableEq

namespace BenchOpt
/-- The arguments of an option. -/
def args : BenchOpt → List (List UInt8)
  | verbose => [argV]
  | all => [argA]
  | times arg _ => [argN, arg]
  | other arg => [arg]

/-- The option means what it says: the argument of `-n` is a number. -/
def Ok (parseCount : List UInt8 → Option Int) : BenchOpt → Prop
  | times arg n => parseCount arg = some n
  | other arg => arg ∉ [argV, argN, argA, argH]
  | _ => True

/-- The number of rounds an option asks for. -/
def rounds : BenchOpt → Option Int
  | times _ n => some n
  | _ => none
end BenchOpt

/-- `m` is a new read request for property `epc` of object `obj`. -/
def Asks (m : Message) (obj : UInt32) (epc : UInt8) : Prop :=
  m.isFormat1 = true ∧ m.tid = 0 ∧ m.esvByte = 0x62 ∧ m.deoj = obj ∧ m.properties = [⟨epc, []⟩] ∧
  m.setProperties = [] ∧ m.getProperties = []

end Uecho.Spec
