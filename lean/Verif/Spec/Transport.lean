import Verif.Spec.Wire
import Verif.Model.Node
/-!
# Specification vocabulary for the transport
-/
namespace Uecho.Spec

/-- Binding a socket on the interface works: one of the three attempts succeeds. -/
def CanBind (e : IfOutcome) : Prop := ∃ k, k < 3 ∧ e.bindOk k = true

/-- The interface has an IPv4 address. -/
def IsV4 (a : IpAddr) : Prop := ∃ x, a = .v4 x

/-- A multicast server can be set up on the interface. -/
def CanMulticast (e : IfOutcome) : Prop := IsV4 e.addr ∧ CanBind e ∧ e.joinOk = true

/-- A unicast server can be set up on the interface. -/
def CanUnicast (e : IfOutcome) : Prop := IsV4 e.addr ∧ CanBind e

/-- No receiver thread has panicked. -/
def ThreadsOk (m : Manager) : Prop := ∀ s ∈ m.ucast ++ m.mcast, s.thread ≠ .panicked

/-- A property after `start`: operating status on, no fault. -/
def startedProperty (c : UInt8) (p : Property) : Property :=
  if c = 0x80 then { p with data := [0x30] } else if c = 0x88 then { p with data := [0x42] } else p

/-- A property after `stop`: operating status off. -/
def stoppedProperty (c : UInt8) (p : Property) : Property :=
  if c = 0x80 then { p with data := [0x31] } else p

/-- An object with every property replaced; code and names are kept. -/
def mapProperties (f : UInt8 → Property → Property) (o : Object) : Object :=
  { o with properties := fun c => (o.properties c).map (f c) }


end Uecho.Spec
