import Verif.Spec.Profile
import Verif.Spec.Request
import Verif.Model.Host
/-!
# Specification vocabulary for the controller
-/
namespace Uecho.Spec
variable {S : Type}

/-- A message that tells a controller about a node: a read response or a notification for the node profile
(0x0EF001) or the transmission-only node profile (0x0EF002). -/
def IsProfileMessage (m : Message) : Prop :=
  (m.esvByte = 0x72 ∨ m.esvByte = 0x73) ∧ (m.deoj = 0x0EF001 ∨ m.deoj = 0x0EF002)

instance (m : Message) : Decidable (IsProfileMessage m) := by unfold IsProfileMessage; infer_instance

/-- The three-byte object codes in a byte string; an incomplete last group is ignored. -/
def objectCodes : List UInt8 → List Nat
  | x :: y :: z :: rest => beVal [x, y, z] :: objectCodes rest
  | _ => []

/-- The object codes in a property, if it is an instance list S (0xD6) whose number of instances fits into
its data. -/
def listedCodes (p : WProperty) : List Nat :=
  match p.data with
  | [] => []
  | k :: rest => if p.code = 0xD6 ∧ 3 * k.toNat ≤ rest.length then objectCodes rest else []

/-- The object codes a message lists. -/
def announcedCodes (m : Message) : List Nat := m.properties.flatMap listedCodes

/-- The addresses in a list, each once, at its last position. -/
def lastOccurrences (l : List SocketAddr) : List SocketAddr :=
  match l with
  | [] => []
  | a :: l => if a ∈ l then lastOccurrences l else a :: lastOccurrences l

/-- The profile messages handed to the controller in a history while its mutex was free, in order. -/
def profileMessages (ops : List (HostOp S)) : List Message :=
  ops.filterMap (fun op => match op with
    | .call .controller e m => if e.ctrlFree = true ∧ IsProfileMessage m then some m else none
    | _ => none)

/-- The UUIDs a history draws are 16 bytes long. -/
def UuidsOk (ops : List (HostOp S)) : Prop :=
  ∀ o e m, HostOp.call o e m ∈ ops → ∀ i, (e.uuid i).length = 16

/-- What a controller knows about a node: its address and the codes of its objects. -/
def entry (r : RemoteNode) : SocketAddr × List Nat := (r.addr, r.objects.map (fun o => o.code.toNat))

/-- The list a controller should have after receiving these profile messages: one entry per sender, ordered
by the last message, with the object codes of the last message and the node profile. -/
def knownNodes (ms : List Message) : List (SocketAddr × List Nat) :=
  (lastOccurrences (ms.map (fun m => m.sender))).filterMap (fun a =>
    ((ms.filter (fun m => m.sender = a)).getLast?).map (fun m => (a, announcedCodes m ++ [0x0EF001])))

end Uecho.Spec
