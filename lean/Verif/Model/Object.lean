import Verif.Model.Property
/-!
# `src/object.rs`, `src/super_object.rs`
-/
namespace Uecho

/-- All 256 property codes. -/
def allCodes : List UInt8 := (List.range 256).map UInt8.ofNat

/-- Iteration orders of the property hash maps. Rust's `HashMap` iterates in an unspecified order
that may change from map to map; `order p` is an arbitrary permutation of all codes used by the
iteration at call path `p` (the iteration visits the present keys in that order). Every theorem
that takes a `HashOrder` therefore holds for all orders at all iterations. -/
structure HashOrder where
  order : List Nat → List UInt8
  perm : ∀ p, (order p).Perm allCodes

namespace HashOrder
/-- The order used by the current iteration. -/
def here (ω : HashOrder) : List UInt8 := ω.order []
/-- The orders used by the `i`-th sub-call. -/
def sub (ω : HashOrder) (i : Nat) : HashOrder := ⟨fun p => ω.order (i :: p), fun _ => ω.perm _⟩
/-- Ascending order everywhere (for examples). -/
def ascending : HashOrder := ⟨fun _ => allCodes, fun _ => List.Perm.refl _⟩
end HashOrder

/-- `struct Object` (src/object.rs:33-38); `properties` is the hash map as a partial function. -/
structure Object where
  codes : UInt8 × UInt8 × UInt8
  name : String
  className : String
  properties : UInt8 → Option Property

/-- `OBJECT_PROPERTY_MAP_FORMAT1_MAX_SIZE` (src/super_object.rs:37). -/
def propertyMapFormat1Max : Nat := 15
/-- `OBJECT_PROPERTY_MAP_FORMAT2_SIZE` (src/super_object.rs:41). -/
def propertyMapFormat2Size : Nat := 16

/-- One iteration of the Format-2 loop (src/object.rs:253-259): row
`((code - 0x80) & 0x0F) + 1`, bit `(((code - 0x80) & 0xF0) >> 4) & 0x0F`, then
`map_bytes[row] |= (0x01 << bit) & 0x0F`. -/
def mapStep (b : Build) (bytes : List UInt8) (code : UInt8) : Res (List UInt8) := do
  let d ← subU8 b code 0x80
  let row := (d &&& 0x0F) + 1
  let bit := ((d &&& 0xF0) >>> 4) &&& 0x0F
  let sh ← shlU8 b 0x01 bit
  let old ← index bytes row.toNat
  pure (bytes.set row.toNat (old ||| (sh &&& 0x0F)))

/-- `to_property_map_bytes` (src/object.rs:241-261). -/
def toPropertyMapBytes (b : Build) (maps : List UInt8) : Res (List UInt8) :=
  if maps.length ≤ propertyMapFormat1Max then
    .ok (UInt8.ofNat maps.length :: maps)
  else
    maps.foldlM (mapStep b) (UInt8.ofNat maps.length :: List.replicate propertyMapFormat2Size 0)

namespace Object

/-- `Object::new` (src/object.rs:41-48). -/
def new : Object := ⟨(0, 0, 0), "", "", fun _ => none⟩

/-- `Object::set_code` (src/object.rs:56-61). -/
def setCode (o : Object) (c : UInt32) : Object :=
  { o with codes := (((c &&& 0xFF0000) >>> 16).toUInt8, ((c &&& 0x00FF00) >>> 8).toUInt8,
                     (c &&& 0x0000FF).toUInt8) }

/-- `Object::from_code` (src/object.rs:50-54). -/
def fromCode (c : UInt32) : Object := new.setCode c

/-- `Object::set_class_group_code` (src/object.rs:63-66). -/
def setClassGroupCode (o : Object) (c : UInt8) : Object := { o with codes := (c, o.codes.2) }
/-- `Object::set_class_code` (src/object.rs:68-71). -/
def setClassCode (o : Object) (c : UInt8) : Object :=
  { o with codes := (o.codes.1, c, o.codes.2.2) }
/-- `Object::set_instance_code` (src/object.rs:73-76). -/
def setInstanceCode (o : Object) (c : UInt8) : Object :=
  { o with codes := (o.codes.1, o.codes.2.1, c) }

/-- `Object::code` (src/object.rs:78-84). -/
def code (o : Object) : UInt32 :=
  let code : UInt32 := 0
  let code := code ||| ((o.codes.1.toUInt32 <<< 16) &&& 0xFF0000)
  let code := code ||| ((o.codes.2.1.toUInt32 <<< 8) &&& 0x00FF00)
  code ||| (o.codes.2.2.toUInt32 &&& 0x0000FF)

/-- `Object::class_group_code` (src/object.rs:86-88). -/
def classGroupCode (o : Object) : UInt8 := o.codes.1
/-- `Object::class_code` (src/object.rs:90-92). -/
def classCode (o : Object) : UInt8 := o.codes.2.1
/-- `Object::instance_code` (src/object.rs:94-96). -/
def instanceCode (o : Object) : UInt8 := o.codes.2.2

/-- `Object::set_class_name` (src/object.rs:107-110). -/
def setClassName (o : Object) (n : String) : Object := { o with className := n }

/-- `Object::properties` (src/object.rs:123-125): the values, in iteration order. -/
def values (o : Object) (order : List UInt8) : List Property := order.filterMap o.properties

/-- `Object::find_property` / `find_property_mut` (src/object.rs:127-133). -/
def findProperty (o : Object) (c : UInt8) : Option Property := o.properties c

/-- `Object::has_property` (src/object.rs:135-140). -/
def hasProperty (o : Object) (c : UInt8) : Bool := if (o.properties c).isNone then false else true

/-- `Object::set_property_data` (src/object.rs:142-150) and `set_property_bytes` (157-159). -/
def setPropertyData (o : Object) (c : UInt8) (d : List UInt8) : Bool × Object :=
  match o.properties c with
  | some p => (true, { o with properties := fun c' => if c' = c then some (p.setData d)
                                                      else o.properties c' })
  | none => (false, o)

/-- `Object::set_property_byte` (src/object.rs:152-155). -/
def setPropertyByte (o : Object) (c : UInt8) (v : UInt8) : Bool × Object := o.setPropertyData c [v]

/-- `Object::set_property_int` (src/object.rs:161-165). -/
def setPropertyInt (b : Build) (o : Object) (c : UInt8) (val : UInt32) (size : Nat) :
    Res (Bool × Object) := do
  let buf ← bytesFromU32 b val (List.replicate size 0)
  pure (o.setPropertyData c buf)

/-- `Object::property_data` / `property_data_as_bytes` (src/object.rs:167-179). -/
def propertyData (o : Object) (c : UInt8) : Option (List UInt8) :=
  match o.findProperty c with
  | some p => some p.data
  | none => none

/-- `Object::property_data_as_byte` (src/object.rs:181-186). -/
def propertyDataAsByte (o : Object) (c : UInt8) : Option UInt8 :=
  match o.findProperty c with
  | some p => some p.dataAsByte
  | none => none

/-- `Object::property_data_as_int` (src/object.rs:188-193). -/
def propertyDataAsInt (b : Build) (o : Object) (c : UInt8) : Res (Option UInt32) :=
  match o.findProperty c with
  | some p => do
    let v ← p.dataAsInt b
    pure (some v)
  | none => .ok none

/-- `Object::equals_property_data` (src/object.rs:195-200). -/
def equalsPropertyData (o : Object) (c : UInt8) (d : List UInt8) : Bool :=
  match o.findProperty c with
  | some p => p.equalsData d
  | none => false

/-- The codes collected by the loop (lines 267-277) of `update_property_maps` (src/object.rs:239-291) for one of the
three predicates. -/
def mapCodes (o : Object) (order : List UInt8) (sel : Property → Bool) : List UInt8 :=
  ((o.values order).filter sel).map (fun p => p.code)

/-- `Object::update_property_maps` (src/object.rs:239-291): recompute the data of 0x9F, 0x9E, 0x9D
(those that exist). The three code lists are collected in one iteration of the hash map. -/
def updatePropertyMaps (b : Build) (order : List UInt8) (o : Object) : Res Object := do
  let getMap := o.mapCodes order Property.isReadable
  let setMap := o.mapCodes order Property.isWritable
  let annoMap := o.mapCodes order Property.isAnnounceable
  let g ← toPropertyMapBytes b getMap
  let o := (o.setPropertyData 0x9F g).2
  let s ← toPropertyMapBytes b setMap
  let o := (o.setPropertyData 0x9E s).2
  let a ← toPropertyMapBytes b annoMap
  pure (o.setPropertyData 0x9D a).2

/-- `self.properties.entry(code).or_insert(prop)` (src/object.rs:118). -/
def orInsert (o : Object) (p : Property) : Object :=
  { o with properties := fun c =>
      if c = p.code then some ((o.properties c).getD p) else o.properties c }

/-- `Object::add_property` (src/object.rs:116-121); always returns `true`. -/
def addProperty (b : Build) (order : List UInt8) (o : Object) (p : Property) : Res Object :=
  updatePropertyMaps b order (o.orInsert p)

/-- Adding a list of properties one after the other, each with its own iteration order; used by
`Clone` and by the standard database. -/
def addAll (b : Build) (ω : HashOrder) (o : Object) : List Property → Res Object
  | [] => .ok o
  | p :: ps => do
    let o' ← o.addProperty b (ω.sub 0).here p
    addAll b (ω.sub 1) o' ps

/-- `impl Clone for Object` (src/object.rs:347-360). `prop.clone()` is the property itself
(`C55_clone_any_order`). -/
def clone (b : Build) (ω : HashOrder) (o : Object) : Res Object :=
  addAll b (ω.sub 0) { o with properties := fun _ => none } (o.values ω.here)

/-- `impl PartialEq for Object` (src/object.rs:362-369). -/
def eq (o o' : Object) : Bool := if o.code ≠ o'.code then false else true

/-- What `impl Hash for Object` (src/object.rs:373-377) feeds into the hasher. -/
def hashInput (o : Object) : UInt32 := o.code

/-! ## `src/super_object.rs` -/

/-- `Object::set_manufacturer_code` (src/super_object.rs:46-52). -/
def setManufacturerCode (b : Build) (o : Object) (c : UInt32) : Res (Bool × Object) :=
  o.setPropertyInt b 0x8A c 3

/-- `Object::manufacturer_code` (src/super_object.rs:54-56): panics if the property is missing. -/
def manufacturerCode (o : Object) : Res Property :=
  match o.findProperty 0x8A with
  | some p => .ok p
  | none => .panic

/-- `Object::set_operating_status` (src/super_object.rs:58-65). -/
def setOperatingStatus (o : Object) (status : Bool) : Bool × Object :=
  o.setPropertyByte 0x80 (if status then 0x30 else 0x31)

/-- `Object::operating_status` (src/super_object.rs:67-69). -/
def operatingStatus (o : Object) : Option UInt8 := o.propertyDataAsByte 0x80

/-- `Object::set_fault_status` (src/super_object.rs:71-78). -/
def setFaultStatus (o : Object) (status : Bool) : Bool × Object :=
  o.setPropertyByte 0x88 (if status then 0x41 else 0x42)

/-- `Object::fault_status` (src/super_object.rs:80-82). -/
def faultStatus (o : Object) : Option UInt8 := o.propertyDataAsByte 0x88

/-- `Object::set_installation_location` (src/super_object.rs:84-86). -/
def setInstallationLocation (o : Object) (loc : UInt8) : Bool × Object := o.setPropertyByte 0x81 loc

/-- `Object::installation_location` (src/super_object.rs:88-90). -/
def installationLocation (o : Object) : Option UInt8 := o.propertyDataAsByte 0x81

/-- `Object::set_standard_version` (src/super_object.rs:92-96): the version letter is byte 2 of 4. -/
def setStandardVersion (o : Object) (v : UInt8) : Bool × Object :=
  o.setPropertyData 0x82 [0, 0, v, 0]

/-- `Object::standard_version` (src/super_object.rs:98-100): the *first* data byte. -/
def standardVersion (o : Object) : Option UInt8 := o.propertyDataAsByte 0x82

/-- `Object::set_id` (src/super_object.rs:102-104). -/
def setId (o : Object) (id : List UInt8) : Bool × Object := o.setPropertyData 0x83 id

/-- `Object::id` (src/super_object.rs:105-107). -/
def idData (o : Object) : Option (List UInt8) := o.propertyData 0x83

/-- The `match *prop_code` (lines 211-230) of `add_standard_properties` (src/object.rs:202-237): default data of one
standard property. `uuid` is the result of `Uuid::new_v4()` inside `OID::new`. -/
def setDefault (b : Build) (uuid : List UInt8) (o : Object) (key : UInt8) : Res Object :=
  if key = 0x8A then do
    let r ← o.setManufacturerCode b 0xFFFFFF
    pure r.2
  else if key = 0x80 then .ok (o.setOperatingStatus false).2
  else if key = 0x81 then .ok (o.setInstallationLocation 0x00).2
  else if key = 0x88 then .ok (o.setFaultStatus false).2
  else if key = 0x82 then .ok (o.setStandardVersion 0x50).2
  else if key = 0x83 then do
    let oid ← oidNew b 0xFFFFFF uuid
    pure (o.setId oid).2
  else .ok o

/-- The loop (lines 208-231) of `add_standard_properties` (src/object.rs:202-237) over the (key, property) pairs of
the standard object. -/
def importLoop (b : Build) (uuid : List UInt8) (ω : HashOrder) (o : Object) :
    List (UInt8 × Property) → Res Object
  | [] => .ok o
  | (k, p) :: rest => do
    let o' ← o.addProperty b (ω.sub 0).here p
    let o'' ← o'.setDefault b uuid k
    importLoop b uuid (ω.sub 1) o'' rest

/-- The (key, value) pairs of the property hash map in iteration order. -/
def entries (o : Object) (order : List UInt8) : List (UInt8 × Property) :=
  order.filterMap (fun c => (o.properties c).map (fun p => (c, p)))

end Object

/-- `struct Manufacture` (src/manufacture.rs:19-22); `code` and `name` (36-38, 44-46) are the fields. -/
structure Manufacture where
  code : UInt32
  name : String
deriving DecidableEq, Repr

/-- `Manufacture::new` (src/manufacture.rs:25-30). -/
def Manufacture.new : Manufacture := ⟨0, ""⟩
/-- `Manufacture::set_code` (src/manufacture.rs:32-34). -/
def Manufacture.setCode (m : Manufacture) (c : UInt32) : Manufacture := { m with code := c }
/-- `Manufacture::set_name` (src/manufacture.rs:40-42). -/
def Manufacture.setName (m : Manufacture) (n : String) : Manufacture := { m with name := n }

/-- `struct StandardDatabase` (src/database.rs:45-48). -/
structure Database where
  manufactures : List Manufacture
  objects : List Object

namespace Database

/-- `StandardDatabase::add_manufacture` (src/database.rs:71-74); the result is always `true`. -/
def addManufacture (db : Database) (m : Manufacture) : Database := { db with manufactures := db.manufactures ++ [m] }

/-- `StandardDatabase::add_object` (src/database.rs:85-88); the result is always `true`. -/
def addObject (db : Database) (o : Object) : Database := { db with objects := db.objects ++ [o] }

/-- `StandardDatabase::find_manufacture` (src/database.rs:76-83). -/
def findManufacture (db : Database) (code : UInt32) : Option Manufacture :=
  db.manufactures.find? (fun m => m.code == code)

/-- `StandardDatabase::find_object` (src/database.rs:90-98). -/
def findObject (db : Database) (code : UInt32) : Option Object :=
  db.objects.find? (fun o => o.code == (code &&& 0xFFFF00))

end Database

namespace Object

/-- `Object::add_standard_properties` (src/object.rs:202-237). -/
def addStandardProperties (b : Build) (db : Database) (uuid : List UInt8) (ω : HashOrder)
    (o : Object) (code : UInt32) : Res (Bool × Object) :=
  match db.findObject (code &&& 0xFFFF00) with
  | some std => do
    let o := o.setClassName std.className
    let o ← importLoop b uuid (ω.sub 0) o (std.entries ω.here)
    pure (true, o)
  | none => .ok (false, o)

end Object
end Uecho
