import Verif.Spec.Object
import Verif.Model.Node
/-!
# Specification vocabulary for request processing (ECHONET Lite Part II, 4.2)

Services are referred to by their byte codes, as in the standard.
-/
namespace Uecho.Spec

/-- The request services 0x60..0x63, 0x6E, 0x74. -/
def isRequestByte (e : UInt8) : Bool :=
  e == 0x60 || e == 0x61 || e == 0x62 || e == 0x63 || e == 0x6E || e == 0x74

/-- The response services, including the error responses. -/
def isResponseByte (e : UInt8) : Bool :=
  e == 0x71 || e == 0x72 || e == 0x73 || e == 0x7A || e == 0x7E ||
  e == 0x50 || e == 0x51 || e == 0x52 || e == 0x53 || e == 0x5E

/-- The error responses. -/
def isErrorByte (e : UInt8) : Bool := e == 0x50 || e == 0x51 || e == 0x52 || e == 0x53 || e == 0x5E

/-- Responses that are multicast: notifications. -/
def isNotificationByte (e : UInt8) : Bool := e == 0x73 || e == 0x7A

/-- The service of the positive response to a request (0x60 has none). -/
def successByte (e : UInt8) : Option UInt8 :=
  if e = 0x61 then some 0x71 else if e = 0x62 then some 0x72 else if e = 0x63 then some 0x73
  else if e = 0x6E then some 0x7E else if e = 0x74 then some 0x7A else none

/-- The service of the error response to a request. The standard defines none for 0x74; the library
answers 0x53. -/
def errorByte (e : UInt8) : UInt8 :=
  if e = 0x60 then 0x50 else if e = 0x61 then 0x51 else if e = 0x62 then 0x52
  else if e = 0x6E then 0x5E else 0x53

/-- The properties a request wants to write, with their data. -/
def writesOf (m : Message) : List WProperty :=
  if m.esvByte = 0x60 ∨ m.esvByte = 0x61 then m.properties
  else if m.esvByte = 0x6E then m.setProperties else []

/-- The properties a request needs read access to. -/
def readsOf (m : Message) : List WProperty :=
  if m.esvByte = 0x62 ∨ m.esvByte = 0x63 ∨ m.esvByte = 0x74 then m.properties
  else if m.esvByte = 0x6E then m.getProperties else []

/-- The object has every property the request mentions, with the access right and the capacity the
request needs (capacity 0 means unlimited). -/
def Allowed (o : Object) (m : Message) : Prop :=
  (∀ w ∈ writesOf m, ∃ p, o.properties w.code = some p ∧ p.writeAttr ≠ .Prohibited ∧
    (p.capacity = 0 ∨ w.data.length ≤ p.capacity)) ∧
  (∀ r ∈ readsOf m, ∃ p, o.properties r.code = some p ∧ p.readAttr ≠ .Prohibited)

/-- Handler `h`, called on the properties one after the other, accepts all of them. -/
def Accepts {S : Type} (h : Handler S) (esv : ESV) : List WProperty → Object → S → Prop
  | [], _, _ => True
  | p :: ps, o, s => (h s o esv p).1 = true ∧ Accepts h esv ps (h s o esv p).2.1 (h s o esv p).2.2

/-- The object and application state after `h` has been called on the properties one after the
other. -/
def afterHandler {S : Type} (h : Handler S) (esv : ESV) : List WProperty → Object × S → Object × S
  | [], x => x
  | p :: ps, x => afterHandler h esv ps (h x.2 x.1 esv p).2

/-- The object and application state after all handlers have been called in turn. -/
def afterHandlers {S : Type} (esv : ESV) (ps : List WProperty) : List (Handler S) → Object × S → Object × S
  | [], x => x
  | h :: hs, x => afterHandlers esv ps hs (afterHandler h esv ps x)

/-- Some handler accepts all properties (each handler sees what the previous ones left). -/
def SomeAccepts {S : Type} (esv : ESV) (ps : List WProperty) : List (Handler S) → Object × S → Prop
  | [], _ => False
  | h :: hs, x => Accepts h esv ps x.1 x.2 ∨ SomeAccepts esv ps hs (afterHandler h esv ps x)

/-- The data of the last write to property `c` in a list of writes. -/
def lastWrite (ws : List WProperty) (c : UInt8) : Option (List UInt8) :=
  ws.foldl (fun acc w => if w.code = c then some w.data else acc) none

/-- A handler that looks at the object but does not change it. -/
def Passive {S : Type} (h : Handler S) : Prop := ∀ s o esv p, (h s o esv p).2.1 = o

/-- The datagrams among the effects. -/
def txs (outs : List Out) : List Tx := outs.filterMap (fun o => match o with | .tx t => some t | _ => none)

/-- The deliveries to `post_message` channels among the effects. -/
def deliveries (outs : List Out) : List (Nat × Message) :=
  outs.filterMap (fun o => match o with | .deliver c m => some (c, m) | _ => none)

/-- The messages handed to the transport among the effects: as given by the caller and as used. -/
def handed (outs : List Out) : List (Message × Message) :=
  outs.filterMap (fun o => match o with | .handed g u => some (g, u) | _ => none)

/-- The messages an operation handed to the transport, as they go out. -/
def replies (outs : List Out) : List Message := (handed outs).map (fun x => x.2)

/-- `dst` is the object a message is for: the first object of the node whose code is the DEOJ; `pre`
and `post` are the objects before and after it. -/
structure Targets {S : Type} (n : Node S) (m : Message) (pre : List Object) (dst : Object)
    (post : List Object) : Prop where
  split : n.objects = pre ++ dst :: post
  first : ∀ o ∈ pre, o.code ≠ m.deoj
  code : dst.code = m.deoj

/-- The codes of a list of properties with empty data: an acknowledgement. -/
def ackOf (ps : List WProperty) : List WProperty := ps.map (fun p => ⟨p.code, []⟩)

/-- The codes of a list of properties with the data object `o` holds for them. -/
def dataOf (o : Object) (ps : List WProperty) : List WProperty :=
  ps.map (fun r => ⟨r.code, ((o.properties r.code).map (fun p => p.data)).getD []⟩)

/-- A handler that never files a property under a wrong code (which is only possible by changing the
code of a property through `find_property_mut`). -/
def KeepsKeys {S : Type} (h : Handler S) : Prop := ∀ s o esv p, KeysOk o → KeysOk (h s o esv p).2.1

/-- What the acceptance of a request depends on: `copy` is the object shown to the handlers. -/
def Accepted {S : Type} (n : Node S) (m : Message) (dst copy : Object) : Prop :=
  Allowed dst m ∧ (n.handlers = [] ∨ SomeAccepts m.esv m.properties n.handlers (copy, n.app))

/-- A message arriving at the node, with what the environment adds: was the node's mutex free, which
hash orders and which outcomes of the sends happen. -/
structure Arrival where
  msg : Message
  free : Bool
  order : HashOrder
  ok : Nat → Bool

/-- The history in which exactly these messages arrive. -/
def arrivals {S : Type} (l : List Arrival) : List (Op S) := l.map (fun a => .receive a.msg a.free a.order a.ok)

/-- A property map from codes to data. -/
abbrev Values := UInt8 → Option (List UInt8)

/-- The data of an object's properties. -/
def valuesOf (o : Object) : Values := fun c => (o.properties c).map (fun p => p.data)

/-- Writing into a map of values: existing entries are overwritten, in order. -/
def Values.write (v : Values) (ws : List WProperty) : Values := fun c =>
  match lastWrite ws c with
  | some d => (v c).map (fun _ => d)
  | none => v c

open Classical in
/-- A device as a map: the object with definitions `o` (only its code and attributes matter) reacts to
a message for it that its attributes allow by performing the writes of the message. -/
noncomputable def Values.step (o : Object) (v : Values) (m : Message) : Values :=
  if isRequestByte m.esvByte = true ∧ m.deoj = o.code ∧ Allowed o m then v.write (writesOf m) else v

/-- A list of objects is unchanged up to recomputed property maps. -/
def SameObjects (l l' : List Object) : Prop :=
  l'.length = l.length ∧ ∀ i (h : i < l.length) (h' : i < l'.length),
    l'[i].code = l[i].code ∧ SameProps l'[i].properties l[i].properties

end Uecho.Spec
