import Verif.Spec.Observers
import Verif.Spec.Transport
import Verif.Spec.Object
/-!
# Specification vocabulary for panics
-/
namespace Uecho.Spec
variable {S : Type}

/-- The message has come in over the network: some datagram makes the receive loop hand it out. -/
def Received (m : Message) : Prop := ∃ bytes src, recvLoop [.datagram bytes src] = ([m], .running)

/-- The property maps of the object can be computed: no panic on overflow, or all property codes are at
least 0x80 as ECHONET Lite demands. -/
def ValidObject (b : Build) (o : Object) : Prop := b.overflowChecks = false ∨ CodesOk o

/-- A node with valid objects and no dead receiver thread. -/
structure Sound (b : Build) (n : Node S) : Prop where
  objects : ∀ o ∈ n.objects, ValidObject b o
  threads : ThreadsOk n.transport

/-- A received message that cannot trigger the panic of `C57_fails_response`. -/
def SafeMessage (m : Message) : Prop := Received m ∧ m.esvByte ≠ 0x5E

/-- An operation on the node that respects the preconditions of the library: valid objects (also after a change in
place), IPv4 interfaces, received messages are safe. -/
def SafeOp (b : Build) : Op S → Prop
  | .addObject o => ValidObject b o
  | .edit _ f => ∀ o, ValidObject b o → ValidObject b (f o)
  | .start menv _ _ => ∀ e ∈ menv, IsV4 e.addr
  | .receive msg _ _ _ => SafeMessage msg
  | _ => True

/-- The same for a host. -/
def SafeHostOp (b : Build) : HostOp S → Prop
  | .call _ e msg => SafeMessage msg ∧ ∀ i, (e.uuid i).length = 16
  | .node op => SafeOp b op
  | .start menv _ _ => ∀ e ∈ menv, IsV4 e.addr
  | _ => True

end Uecho.Spec
