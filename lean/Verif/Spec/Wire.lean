import Verif.Model.Wire
/-!
# The ECHONET Lite Format-1 frame, written from the frame format

This file does not refer to the encoder or decoder of the model; it only uses the data type of a
wire property (an EPC code and its EDT bytes).
-/
namespace Uecho.Spec

/-- Big-endian representation of `v` on `len` bytes. -/
def be : (len : Nat) → (v : Nat) → List UInt8
  | 0, _ => []
  | len + 1, v => be len (v / 256) ++ [UInt8.ofNat (v % 256)]

/-- Value of a big-endian byte string. -/
def beVal (bs : List UInt8) : Nat := bs.foldl (fun acc b => acc * 256 + b.toNat) 0

/-- One property on the wire: EPC, PDC, EDT. -/
def encProp (p : WProperty) : List UInt8 :=
  [p.code, UInt8.ofNat p.data.length] ++ p.data

/-- A property list on the wire: OPC followed by the properties. -/
def encList (ps : List WProperty) : List UInt8 :=
  UInt8.ofNat ps.length :: ps.flatMap encProp

/-- The sizes the format can represent: OPC and PDC are one byte each. -/
def InRange (ps : List WProperty) : Prop :=
  ps.length ≤ 255 ∧ ∀ p ∈ ps, p.data.length ≤ 255

instance (ps : List WProperty) : Decidable (InRange ps) := by
  unfold InRange; infer_instance

/-- The services carrying two property lists (SetGet: request 0x6E, response 0x7E, error 0x5E). -/
def isWriteReadByte (esv : UInt8) : Bool := esv == 0x6E || esv == 0x7E || esv == 0x5E

/-- The payload of a frame: one property list or, for SetGet services, a set and a get list. -/
inductive Body where
  | single (props : List WProperty)
  | setGet (set get : List WProperty)
deriving DecidableEq, Repr

/-- The information content of a Format-1 frame. -/
structure Frame where
  tid : Nat
  seoj : Nat
  deoj : Nat
  esv : UInt8
  body : Body
deriving DecidableEq, Repr

/-- Payload bytes. -/
def Body.encode : Body → List UInt8
  | .single ps => encList ps
  | .setGet s g => encList s ++ encList g

/-- Header and payload of a frame. -/
def Frame.encode (f : Frame) : List UInt8 :=
  [0x10, 0x81] ++ be 2 f.tid ++ be 3 f.seoj ++ be 3 f.deoj ++ [f.esv] ++ f.body.encode

/-- Sizes are representable, and the payload shape is the one required by the service code. -/
def Frame.Valid (f : Frame) : Prop :=
  f.tid < 2 ^ 16 ∧ f.seoj < 2 ^ 24 ∧ f.deoj < 2 ^ 24 ∧
  match f.body with
  | .single ps => isWriteReadByte f.esv = false ∧ InRange ps
  | .setGet s g => isWriteReadByte f.esv = true ∧ InRange s ∧ InRange g

instance (f : Frame) : Decidable f.Valid := by
  unfold Frame.Valid; cases f.body <;> infer_instance

/-- What the public accessors of a message say about it (`tid()`, `seoj()`, `deoj()`, the service
byte and the property lists relevant for that service). -/
def frameOf (m : Message) : Frame :=
  { tid := m.tid.toNat, seoj := m.seoj.toNat, deoj := m.deoj.toNat, esv := m.esvByte,
    body := if isWriteReadByte m.esvByte then .setGet m.setProperties m.getProperties
            else .single m.properties }

/-- `p` is a proper prefix of `b`. -/
def ProperPrefix (p b : List UInt8) : Prop := ∃ t, t ≠ [] ∧ b = p ++ t

end Uecho.Spec
