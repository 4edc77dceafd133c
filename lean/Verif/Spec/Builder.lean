import Verif.Spec.Property
/-!
# Specification vocabulary for building and printing messages
-/
namespace Uecho.Spec

/-- A call of one of the public mutating methods of `protocol::Message` (except `parse`). -/
inductive MessageOp where
  | setTid (t : UInt16)
  | setSeoj (c : UInt32)
  | setDeoj (c : UInt32)
  | setEsv (e : ESV)
  | addProperty (p : WProperty)
  | addPropertySet (p : WProperty)
  | addPropertyGet (p : WProperty)
  | setFrom (a : SocketAddr)

/-- Run one call on the model. -/
def MessageOp.run (m : Message) : MessageOp → Message
  | .setTid t => m.setTid t
  | .setSeoj c => m.setSeoj c
  | .setDeoj c => m.setDeoj c
  | .setEsv e => m.setEsv e
  | .addProperty p => m.addProperty p
  | .addPropertySet p => m.addPropertySet p
  | .addPropertyGet p => m.addPropertyGet p
  | .setFrom a => m.setFrom a

/-- The message built by a list of calls on `Message::new()`. -/
def built (ops : List MessageOp) : Message := ops.foldl MessageOp.run Message.new

/-- Of a call: the transaction ID it sets, if it is such a call. -/
def MessageOp.tidArg : MessageOp → Option Nat
  | .setTid t => some t.toNat
  | _ => none

/-- Of a call: the source object (24 bits) it sets, if it is such a call. -/
def MessageOp.seojArg : MessageOp → Option Nat
  | .setSeoj c => some (c.toNat % 2 ^ 24)
  | _ => none

/-- Of a call: the destination object (24 bits) it sets, if it is such a call. -/
def MessageOp.deojArg : MessageOp → Option Nat
  | .setDeoj c => some (c.toNat % 2 ^ 24)
  | _ => none

/-- Of a call: the service code it sets, if it is such a call. -/
def MessageOp.esvArg : MessageOp → Option UInt8
  | .setEsv e => some e.toU8
  | _ => none

/-- Of a call: the sender it sets, if it is such a call. -/
def MessageOp.fromArg : MessageOp → Option SocketAddr
  | .setFrom a => some a
  | _ => none

/-- Of a call: the property it adds to the plain list, if it is such a call. -/
def MessageOp.propArg : MessageOp → Option WProperty
  | .addProperty p => some p
  | _ => none

/-- Of a call: the property it adds to the set list, if it is such a call. -/
def MessageOp.setArg : MessageOp → Option WProperty
  | .addPropertySet p => some p
  | _ => none

/-- Of a call: the property it adds to the get list, if it is such a call. -/
def MessageOp.getArg : MessageOp → Option WProperty
  | .addPropertyGet p => some p
  | _ => none

/-- The properties added by the calls selected by `f`, in call order. -/
def addedProps (f : MessageOp → Option WProperty) (ops : List MessageOp) : List WProperty := ops.filterMap f

/-- The last service set, as its ECHONET Lite code (0 when none was set). -/
def serviceOf (ops : List MessageOp) : UInt8 :=
  lastSet MessageOp.esvArg 0 ops

/-- The frame a sequence of calls describes: the last header values (object codes are 24 bits wide) and all
properties in the order in which they were added. -/
def describedFrame (ops : List MessageOp) : Frame :=
  { tid := lastSet MessageOp.tidArg 0 ops
    seoj := lastSet MessageOp.seojArg 0 ops
    deoj := lastSet MessageOp.deojArg 0 ops
    esv := serviceOf ops
    body :=
      if isWriteReadByte (serviceOf ops) then
        .setGet (addedProps MessageOp.setArg ops)
          (addedProps MessageOp.getArg ops)
      else .single (addedProps MessageOp.propArg ops) }

/-- A call of a public mutating method of `protocol::Property` (except `parse`). -/
inductive WPropertyOp where
  | setCode (c : UInt8)
  | setData (d : List UInt8)

/-- Run one call on the model. -/
def WPropertyOp.run (p : WProperty) : WPropertyOp → WProperty
  | .setCode c => p.setCode c
  | .setData d => p.setData d

/-- Of a call: the code it sets, if it is such a call. -/
def WPropertyOp.codeArg : WPropertyOp → Option UInt8
  | .setCode c => some c
  | .setData _ => none

/-- Of a call: the data it sets, if it is such a call. -/
def WPropertyOp.dataArg : WPropertyOp → Option (List UInt8)
  | .setCode _ => none
  | .setData d => some d

/-- Value of an upper-case hexadecimal digit. -/
def hexVal (c : Char) : Option Nat :=
  (['0', '1', '2', '3', '4', '5', '6', '7', '8', '9', 'A', 'B', 'C', 'D', 'E', 'F']).idxOf? c

/-- Read a byte string written as pairs of hexadecimal digits. -/
def unhex : List Char → Option (List UInt8)
  | [] => some []
  | a :: b :: rest => do
    let x ← hexVal a
    let y ← hexVal b
    let bs ← unhex rest
    pure (UInt8.ofNat (x * 16 + y) :: bs)
  | [_] => none

end Uecho.Spec
