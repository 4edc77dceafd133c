import Verif.Model.Res
import Verif.Model.Esv
/-!
# `src/protocol/property.rs` and `src/protocol/message.rs`: the wire codec
-/
namespace Uecho

/-- `std::net::IpAddr`: an IPv4 or IPv6 address (only equality matters to the code). -/
inductive IpAddr where
  | v4 (a : UInt32)
  | v6 (a : Nat)
deriving DecidableEq, Repr

/-- `std::net::SocketAddr`. -/
structure SocketAddr where
  ip : IpAddr
  port : UInt16
deriving DecidableEq, Repr

/-- `SocketAddr::new(IpAddr::V4(Ipv4Addr::UNSPECIFIED), 0)`. -/
def SocketAddr.unspecified : SocketAddr := ⟨.v4 0, 0⟩

/-- `protocol::Property` (src/protocol/property.rs:21-24). -/
structure WProperty where
  code : UInt8
  data : List UInt8
deriving DecidableEq, Repr

namespace WProperty

/-- `Property::new` (src/protocol/property.rs:27-32). -/
def new : WProperty := ⟨0, []⟩

/-- `Property::from` (src/protocol/property.rs:34-39). -/
def ofParts (code : UInt8) (data : List UInt8) : WProperty := ⟨code, data⟩

/-- `Property::set_code` (src/protocol/property.rs:41-44); `code` (46-48) is the field. -/
def setCode (p : WProperty) (code : UInt8) : WProperty := { p with code := code }

/-- `Property::set_data` (src/protocol/property.rs:50-53); `data` (55-57) is the field. -/
def setData (p : WProperty) (data : List UInt8) : WProperty := { p with data := data }

/-- `impl Clone for Property` (src/protocol/property.rs:107-114). -/
def clone (p : WProperty) : WProperty := ⟨p.code, p.data⟩

/-- `Property::size` (src/protocol/property.rs:59-61). -/
def size (p : WProperty) : Nat := p.data.length

/-- `Property::parse` (src/protocol/property.rs:63-87). Returns the boolean result and the new
`self`: `code` is overwritten and `data` cleared even when the parse fails. The copy loop of lines
82-84 is the `foldlM`, whose `prop_data[n]` would panic out of bounds. -/
def parse (self : WProperty) (msg : List UInt8) : Res (Bool × WProperty) := do
  if msg.length < 2 then
    return (false, self)
  let code ← index msg 0
  let sz ← index msg 1
  let dataSize := sz.toNat
  if dataSize = 0 then
    return (true, ⟨code, []⟩)
  if msg.length < 2 + dataSize then
    return (false, ⟨code, []⟩)
  let propData ← sliceFrom msg 2
  let data ← (List.range dataSize).foldlM (fun (d : List UInt8) (n : Nat) => do
    let x ← index propData n
    pure (d ++ [x])) []
  return (true, ⟨code, data⟩)

/-- `Property::equals` (src/protocol/property.rs:89-104). Sizes are compared first, so the
element-wise loop is list equality of the data. -/
def equals (p q : WProperty) : Bool :=
  if p.code ≠ q.code then false
  else if p.size ≠ q.size then false
  else (List.range p.size).all (fun n => p.data[n]? == q.data[n]?)

end WProperty

/-- `protocol::Message` (src/protocol/message.rs:66-76). The fixed-size byte arrays are tuples. -/
structure Message where
  ehd : UInt8 × UInt8
  tidBytes : UInt8 × UInt8
  seojBytes : UInt8 × UInt8 × UInt8
  deojBytes : UInt8 × UInt8 × UInt8
  esvByte : UInt8
  properties : List WProperty
  setProperties : List WProperty
  getProperties : List WProperty
  sender : SocketAddr
deriving DecidableEq, Repr

namespace Message

/-- `Message::new` (src/protocol/message.rs:79-91). -/
def new : Message :=
  { ehd := (0x10, 0x81), tidBytes := (0, 0), seojBytes := (0, 0, 0), deojBytes := (0, 0, 0),
    esvByte := 0, properties := [], setProperties := [], getProperties := [],
    sender := SocketAddr.unspecified }

/-- `Message::set_tid` (src/protocol/message.rs:99-103). -/
def setTid (m : Message) (tid : UInt16) : Message :=
  { m with tidBytes := (((tid &&& 0xFF00) >>> 8).toUInt8, (tid &&& 0x00FF).toUInt8) }

/-- `Message::tid` (src/protocol/message.rs:112-114); the sum cannot overflow. -/
def tid (m : Message) : UInt16 :=
  (m.tidBytes.1.toUInt16 <<< 8) + m.tidBytes.2.toUInt16

/-- `Message::has_tid` (src/protocol/message.rs:105-110). -/
def hasTid (m : Message) : Bool := if m.tid = 0 then false else true

/-- `Message::to_object_code` (src/protocol/message.rs:116-118); the sums cannot overflow. -/
def toObjectCode (e : UInt8 × UInt8 × UInt8) : UInt32 :=
  (e.1.toUInt32 <<< 16) + (e.2.1.toUInt32 <<< 8) + e.2.2.toUInt32

/-- The byte split used by `set_seoj` and `set_deoj` (src/protocol/message.rs:120-125, 131-136). -/
def eojBytes (code : UInt32) : UInt8 × UInt8 × UInt8 :=
  (((code &&& 0xFF0000) >>> 16).toUInt8, ((code &&& 0xFF00) >>> 8).toUInt8, (code &&& 0x00FF).toUInt8)

/-- `Message::set_seoj` (src/protocol/message.rs:120-125). -/
def setSeoj (m : Message) (code : UInt32) : Message := { m with seojBytes := eojBytes code }

/-- `Message::seoj` (src/protocol/message.rs:127-129). -/
def seoj (m : Message) : UInt32 := toObjectCode m.seojBytes

/-- `Message::set_deoj` (src/protocol/message.rs:131-136). -/
def setDeoj (m : Message) (code : UInt32) : Message := { m with deojBytes := eojBytes code }

/-- `Message::deoj` (src/protocol/message.rs:138-140). -/
def deoj (m : Message) : UInt32 := toObjectCode m.deojBytes

/-- `Message::set_esv` (src/protocol/message.rs:142-145). -/
def setEsv (m : Message) (e : ESV) : Message := { m with esvByte := e.toU8 }

/-- `Message::esv` (src/protocol/message.rs:147-149). -/
def esv (m : Message) : ESV := ESV.fromU8 m.esvByte

/-- `Message::add_property` (src/protocol/message.rs:163-166). -/
def addProperty (m : Message) (p : WProperty) : Message :=
  { m with properties := m.properties ++ [p] }

/-- `Message::add_property_set` (src/protocol/message.rs:168-171). -/
def addPropertySet (m : Message) (p : WProperty) : Message :=
  { m with setProperties := m.setProperties ++ [p] }

/-- `Message::add_property_get` (src/protocol/message.rs:173-176). -/
def addPropertyGet (m : Message) (p : WProperty) : Message :=
  { m with getProperties := m.getProperties ++ [p] }

/-- `Message::opc` (src/protocol/message.rs:151-153). -/
def opc (m : Message) : Nat := m.properties.length
/-- `Message::opc_set` (src/protocol/message.rs:155-157). -/
def opcSet (m : Message) : Nat := m.setProperties.length
/-- `Message::opc_get` (src/protocol/message.rs:159-161). -/
def opcGet (m : Message) : Nat := m.getProperties.length

/-- `Message::property` (src/protocol/message.rs:190-192): indexing, panics out of range. -/
def property (m : Message) (n : Nat) : Res WProperty := index m.properties n

/-- `Message::property_set` (src/protocol/message.rs:194-196): indexing, panics out of range. -/
def propertySet (m : Message) (n : Nat) : Res WProperty := index m.setProperties n

/-- `Message::property_get` (src/protocol/message.rs:198-200): indexing, panics out of range. -/
def propertyGet (m : Message) (n : Nat) : Res WProperty := index m.getProperties n

/-- `Message::set_from` (src/protocol/message.rs:202-205); `from` (207-209) is the field, and so are `properties`,
`properties_set` and `properties_get` (178-188). -/
def setFrom (m : Message) (a : SocketAddr) : Message := { m with sender := a }

/-- `Message::is_format1` (src/protocol/message.rs:211-217). -/
def isFormat1 (m : Message) : Bool :=
  if m.ehd.1 ≠ 0x10 ∨ m.ehd.2 ≠ 0x81 then false else true

/-- `Message::parse_header` (src/protocol/message.rs:236-245). -/
def parseHeader (m : Message) (header : List UInt8) : Res (Bool × Message) := do
  if header.length ≤ 4 then
    return (false, m)
  let h0 ← index header 0
  let h1 ← index header 1
  let h2 ← index header 2
  let h3 ← index header 3
  return (true, { m with ehd := (h0, h1), tidBytes := (h2, h3) })

/-- The loop body of `parse_property_bytes` (src/protocol/message.rs:256-274), iterated `k` times:
slice at the offset, parse a property, advance the offset, push. Returns (success, properties,
offset); on failure the properties parsed so far stay in the vector. -/
def parsePropsLoop (msg : List UInt8) : Nat → List WProperty → Nat →
    Res (Bool × List WProperty × Nat)
  | 0, props, off => .ok (true, props, off)
  | k + 1, props, off => do
    let propMsg ← sliceFrom msg off
    let r ← WProperty.parse WProperty.new propMsg
    if !r.1 then
      return (false, props, off)
    parsePropsLoop msg k (props ++ [r.2]) (off + (2 + r.2.size))

/-- `parse_property_bytes` (src/protocol/message.rs:256-274). `msg[*prop_msg_offset]` panics when
the offset is at the end of the slice. -/
def parsePropertyBytes (props : List WProperty) (msg : List UInt8) (off : Nat) :
    Res (Bool × List WProperty × Nat) := do
  let opc ← index msg off
  parsePropsLoop msg opc.toNat props (off + 1)

/-- `Message::parse_format1_data` (src/protocol/message.rs:247-298). -/
def parseFormat1Data (m : Message) (msg : List UInt8) : Res (Bool × Message) := do
  if msg.length < 8 then
    return (false, m)
  let b0 ← index msg 0
  let b1 ← index msg 1
  let b2 ← index msg 2
  let b3 ← index msg 3
  let b4 ← index msg 4
  let b5 ← index msg 5
  let b6 ← index msg 6
  let m := { m with seojBytes := (b0, b1, b2), deojBytes := (b3, b4, b5), esvByte := b6 }
  let propMsg ← sliceFrom msg 7
  match m.esv with
  | .WriteReadRequest | .WriteReadResponse | .WriteReadRequestError =>
    let r ← parsePropertyBytes m.setProperties propMsg 0
    let m := { m with setProperties := r.2.1 }
    if !r.1 then
      return (false, m)
    let r' ← parsePropertyBytes m.getProperties propMsg r.2.2
    let m := { m with getProperties := r'.2.1 }
    if !r'.1 then
      return (false, m)
    return (true, m)
  | _ =>
    let r ← parsePropertyBytes m.properties propMsg 0
    let m := { m with properties := r.2.1 }
    if !r.1 then
      return (false, m)
    return (true, m)

/-- `Message::parse` (src/protocol/message.rs:219-234). Fields may be modified even when the result
is `false`. -/
def parse (m : Message) (msg : List UInt8) : Res (Bool × Message) := do
  let r ← parseHeader m msg
  if !r.1 then
    return (false, r.2)
  if !r.2.isFormat1 then
    return (false, r.2)
  let body ← sliceFrom msg 4
  let r' ← parseFormat1Data r.2 body
  if !r'.1 then
    return (false, r'.2)
  return (true, r'.2)

/-- `Message::from_bytes` (src/protocol/message.rs:93-97): the boolean result is ignored. -/
def fromBytes (msg : List UInt8) : Res Message := do
  let r ← parse Message.new msg
  return r.2

/-- The per-property part of `add_property_bytes` (src/protocol/message.rs:328-339): code, size
truncated to `u8`, then all data bytes (the index loop over `0..pdc` copies the whole vector since
`pdc = prop.size()`). -/
def propBytes (p : WProperty) : List UInt8 :=
  [p.code, UInt8.ofNat p.size] ++ p.data

/-- `Message::add_property_bytes` (src/protocol/message.rs:328-339): the count truncated to `u8`
(`as u8`), then each property. -/
def addPropertyBytes (acc : List UInt8) (props : List WProperty) : List UInt8 :=
  props.foldl (fun acc p => acc ++ propBytes p) (acc ++ [UInt8.ofNat props.length])

/-- `Message::bytes` (src/protocol/message.rs:341-366). Note that, unlike the decoder, the encoder
treats `WriteReadRequestError` like a single-list service. -/
def bytes (m : Message) : List UInt8 :=
  let h : List UInt8 :=
    [m.ehd.1, m.ehd.2, m.tidBytes.1, m.tidBytes.2,
     m.seojBytes.1, m.seojBytes.2.1, m.seojBytes.2.2,
     m.deojBytes.1, m.deojBytes.2.1, m.deojBytes.2.2, m.esvByte]
  match m.esv with
  | .WriteReadRequest | .WriteReadResponse =>
    addPropertyBytes (addPropertyBytes h m.setProperties) m.getProperties
  | _ => addPropertyBytes h m.properties

/-- `impl Clone for Message` (src/protocol/message.rs:369-375). -/
def clone (m : Message) : Res Message := do
  let r ← parse Message.new m.bytes
  return r.2

/-- `{:02X}` of Rust's formatting machinery for a byte: two upper-case hexadecimal digits. -/
def hexByte (x : UInt8) : List Char :=
  [Nat.digitChar (x.toNat / 16), Nat.digitChar (x.toNat % 16)].map Char.toUpper

/-- `impl Display for ESV` (src/protocol/esv.rs:110-119). -/
def esvDisplay (e : ESV) : List Char := hexByte e.toU8

/-- `impl Display for Message` (src/protocol/message.rs:377-387), as the list of characters written. Errors of
the formatter (the sink, not the message) are not modelled. -/
def display (m : Message) : List Char :=
  m.bytes.foldl (fun acc x => acc ++ hexByte x) []

/-- `Message::equals` (src/protocol/message.rs:300-326). The loop indexes both property vectors at
`0..opc`; both have length `opc` there, so the indexing cannot panic and is modelled with `zip`. -/
def equals (m n : Message) : Bool :=
  if m.tid ≠ n.tid then false
  else if m.seoj ≠ n.seoj then false
  else if m.deoj ≠ n.deoj then false
  else if m.esv ≠ n.esv then false
  else if m.opc ≠ n.opc then false
  else (m.properties.zip n.properties).all (fun pq => pq.1.equals pq.2)

end Message
end Uecho
