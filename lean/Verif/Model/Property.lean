import Verif.Model.Wire
import Verif.Model.Bytes
/-!
# `src/property.rs`
-/
namespace Uecho

/-- `enum PropertyRule` (src/property.rs:42-46). -/
inductive Rule where
  | Prohibited
  | Required
  | Optional
deriving DecidableEq, Repr

/-- `struct PropertyEnum` (src/property.rs:49-53). -/
structure PropertyEnum where
  code : UInt32
  name : String
  desc : String
deriving DecidableEq, Repr

namespace PropertyEnum
/-- `PropertyEnum::new` (src/property.rs:56-62). -/
def new : PropertyEnum := ⟨0, "", ""⟩
/-- `PropertyEnum::set_code` (src/property.rs:64-67). -/
def setCode (e : PropertyEnum) (c : UInt32) : PropertyEnum := { e with code := c }
/-- `PropertyEnum::set_name` (src/property.rs:73-76). -/
def setName (e : PropertyEnum) (n : String) : PropertyEnum := { e with name := n }
/-- `PropertyEnum::set_description` (src/property.rs:82-85). -/
def setDescription (e : PropertyEnum) (d : String) : PropertyEnum := { e with desc := d }
/-- `PropertyEnum::description` (src/property.rs:87-89): returns the *name* field. -/
def description (e : PropertyEnum) : String := e.name
end PropertyEnum

/-- `enum PropertyType` (src/property.rs:110-124). -/
inductive PropertyType where
  | Unknown
  | Number
  | State
  | NumericValue
  | Level
  | Date
  | DateTime
  | Time
  | Raw
  | Bitmap
  | Array
  | Object
  | OneOf
deriving DecidableEq, Repr

/-- `PropertyType::from_string` (src/property.rs:127-143). -/
def PropertyType.fromString (typ : String) : PropertyType :=
  match typ with
  | "number" => .Number
  | "state" => .State
  | "numericValue" => .NumericValue
  | "level" => .Level
  | "date" => .Date
  | "date-time" => .DateTime
  | "time" => .Time
  | "raw" => .Raw
  | "bitmap" => .Bitmap
  | "array" => .Array
  | "object" => .Object
  | "oneOf" => .OneOf
  | _ => .Unknown

/-- `struct Property` (src/property.rs:147-157). The `enums` hash map is a partial function from
enum codes. -/
structure Property where
  code : UInt8
  data : List UInt8
  name : String
  typ : String
  capacity : Nat
  readAttr : Rule
  writeAttr : Rule
  annoAttr : Rule
  enums : UInt32 → Option PropertyEnum

namespace Property

/-- `Property::new` (src/property.rs:160-172). -/
def new : Property :=
  { code := 0, data := [], name := "", typ := "", capacity := 0, readAttr := .Prohibited,
    writeAttr := .Prohibited, annoAttr := .Prohibited, enums := fun _ => none }

/-- `Property::set_code` (src/property.rs:174-177). -/
def setCode (p : Property) (c : UInt8) : Property := { p with code := c }
/-- `Property::set_name` (src/property.rs:183-186). -/
def setName (p : Property) (n : String) : Property := { p with name := n }
/-- `Property::set_data_type` (src/property.rs:192-195). -/
def setDataType (p : Property) (t : String) : Property := { p with typ := t }
/-- `Property::set_capacity` (src/property.rs:201-204). -/
def setCapacity (p : Property) (n : Nat) : Property := { p with capacity := n }
/-- `Property::set_read_attribute` (src/property.rs:210-213). -/
def setReadAttribute (p : Property) (r : Rule) : Property := { p with readAttr := r }
/-- `Property::set_write_attribute` (src/property.rs:219-222). -/
def setWriteAttribute (p : Property) (r : Rule) : Property := { p with writeAttr := r }
/-- `Property::set_anno_attribute` (src/property.rs:227-230). -/
def setAnnoAttribute (p : Property) (r : Rule) : Property := { p with annoAttr := r }

/-- `Property::is_read_required` (src/property.rs:236-242). -/
def isReadRequired (p : Property) : Bool :=
  match p.readAttr with | .Prohibited => false | .Required => true | .Optional => false
/-- `Property::is_write_required` (src/property.rs:244-250). -/
def isWriteRequired (p : Property) : Bool :=
  match p.writeAttr with | .Prohibited => false | .Required => true | .Optional => false
/-- `Property::is_announce_required` (src/property.rs:252-258). -/
def isAnnounceRequired (p : Property) : Bool :=
  match p.annoAttr with | .Prohibited => false | .Required => true | .Optional => false
/-- `Property::is_readable` (src/property.rs:260-266). -/
def isReadable (p : Property) : Bool :=
  match p.readAttr with | .Prohibited => false | .Required => true | .Optional => true
/-- `Property::is_writable` (src/property.rs:268-274). -/
def isWritable (p : Property) : Bool :=
  match p.writeAttr with | .Prohibited => false | .Required => true | .Optional => true
/-- `Property::is_announceable` (src/property.rs:276-282). -/
def isAnnounceable (p : Property) : Bool :=
  match p.annoAttr with | .Prohibited => false | .Required => true | .Optional => true
/-- `Property::is_readonly` (src/property.rs:284-292). -/
def isReadonly (p : Property) : Bool :=
  if !p.isReadable then false else if p.isWritable then false else true
/-- `Property::is_writeonly` (src/property.rs:294-302). -/
def isWriteonly (p : Property) : Bool :=
  if !p.isWritable then false else if p.isReadable then false else true

/-- `Property::size` (src/property.rs:304-306). -/
def size (p : Property) : Nat := p.data.length

/-- `Property::set_data` / `set_bytes_data` (src/property.rs:308-311, 319-322). -/
def setData (p : Property) (d : List UInt8) : Property := { p with data := d }

/-- `Property::set_byte_data` (src/property.rs:313-317). -/
def setByteData (p : Property) (v : UInt8) : Property := p.setData [v]

/-- `Property::set_int_data` (src/property.rs:324-329). -/
def setIntData (b : Build) (p : Property) (val : UInt32) (size : Nat) : Res Property := do
  let buf ← bytesFromU32 b val (List.replicate size 0)
  pure (p.setData buf)

/-- `Property::add_data` (src/property.rs:331-334). -/
def addData (p : Property) (d : List UInt8) : Property := { p with data := p.data ++ d }

/-- `Property::data_as_byte` (src/property.rs:344-349). -/
def dataAsByte (p : Property) : UInt8 :=
  match p.data with
  | [] => 0
  | x :: _ => x

/-- `Property::data_as_int` (src/property.rs:351-356). -/
def dataAsInt (b : Build) (p : Property) : Res UInt32 :=
  if p.data.length ≤ 0 then .ok 0 else bytesToU32 b p.data

/-- `Property::equals_data` (src/property.rs:358-368). -/
def equalsData (p : Property) (d : List UInt8) : Bool :=
  if p.data.length ≠ d.length then false
  else (List.range d.length).all (fun n => p.data[n]? == d[n]?)

/-- `Property::add_enum` (src/property.rs:370-374): `HashMap::insert`, the last one wins. -/
def addEnum (p : Property) (e : PropertyEnum) : Property :=
  { p with enums := fun c => if c = e.code then some e else p.enums c }

/-- `Property::find_enum` (src/property.rs:380-382). -/
def findEnum (p : Property) (c : UInt32) : Option PropertyEnum := p.enums c

/-- `impl Clone for Property` (src/property.rs:385-403), for one iteration order `order` of the keys
of the enum hash map. -/
def cloneInOrder (p : Property) (order : List UInt32) : Property :=
  (order.filterMap p.enums).foldl addEnum { p with enums := fun _ => none }

/-- `impl From<&Property> for protocol::Property` (src/property.rs:411-415). -/
def toWire (p : Property) : WProperty := ⟨p.code, p.data⟩

end Property
end Uecho
