import Verif.Spec.Request
/-!
# Specification vocabulary: which calls a request handler sees
-/
namespace Uecho.Spec

/-- A handler that leaves the application state alone. -/
def Quiet {S : Type} (h : Handler S) : Prop := ∀ s o esv p, (h s o esv p).2.2 = s

/-- One call of a request handler: the code of the object, the service and the property. -/
abbrev HandlerCall := UInt32 × ESV × WProperty

/-- A handler that writes down its calls, and decides by an arbitrary function. -/
def recorder (accept : UInt32 → ESV → WProperty → Bool) : Handler (List HandlerCall) :=
  fun log o esv p => (accept o.code esv p, o, log ++ [(o.code, esv, p)])

open Classical in
/-- The calls a message should cause at each handler of a node: none unless it is a request for an object of the
node which has all the properties with the needed rights and capacity; then one call per property, in order. -/
noncomputable def callsFor {S : Type} (n : Node S) (m : Message) : List HandlerCall :=
  if isRequestByte m.esvByte = true ∧ ∃ pre dst post, Targets n m pre dst post ∧ Allowed dst m
  then m.properties.map (fun p => (m.deoj, m.esv, p)) else []

/-- A handler whose decision depends only on the service, the property and the object's code and attributes: not
on the application's state nor on data. -/
def Stateless {S : Type} (h : Handler S) : Prop :=
  ∀ s s' o o' esv p, o'.code = o.code → (∀ c, (o'.properties c).map attrsOf = (o.properties c).map attrsOf) →
    (h s' o' esv p).1 = (h s o esv p).1

/-- Some handler approves of all properties of the message, for the object with definitions `o`. -/
def Approved {S : Type} (hs : List (Handler S)) (o : Object) (m : Message) : Prop :=
  hs = [] ∨ ∃ h ∈ hs, ∀ p ∈ m.properties, ∀ s, (h s o m.esv p).1 = true

open Classical in
/-- A device as a map whose writes need the approval of a handler. -/
noncomputable def Values.judgedStep {S : Type} (hs : List (Handler S)) (o : Object) (v : Values) (m : Message) :
    Values :=
  if isRequestByte m.esvByte = true ∧ m.deoj = o.code ∧ Allowed o m ∧ Approved hs o m
  then v.write (writesOf m) else v

end Uecho.Spec
