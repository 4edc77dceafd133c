import Verif.Model.Panics
/-!
# Specification vocabulary for request handlers that panic (C94)
-/
namespace Uecho.Spec
variable {S : Type}

/-- The handler that refuses where `h` panics. -/
def tame (h : PHandler S) : Handler S := fun s o esv p =>
  match h s o esv p with
  | .returns a o' s' => (a, o', s')
  | .panics s' => (false, o, s')

/-- A registered handler as a function that does not panic. -/
def tamed (H : Handlers S) : HandlerRef → Handler S
  | .builtin => nodeHandler
  | .user k => tame (H.code k)

/-- The node as one of `Model/Node`, with its handlers as functions that do not panic. -/
def asNode (H : Handlers S) (n : PNode) : Node S :=
  ⟨n.node.transport, n.node.objects, n.node.lastTid, n.node.post, n.node.nextChan, n.refs.map (tamed H), n.node.observers, H.app⟩

/-- The handler never panics. -/
def Calm (h : PHandler S) : Prop := ∀ s o esv p, ∃ a o' s', h s o esv p = .returns a o' s'

/-- The message is a request for an object of the node that has passed all its checks, so that handlers are asked. -/
def Asked (n : Node Unit) (msg : Message) : Prop :=
  ∃ dst, findObject n.objects msg.deoj = some dst ∧ msg.esv.isRequest = true ∧ Node.validRequest dst msg = true

/-- The step concerns node `i`. -/
def At (i : Nat) : ProcOp → Prop
  | .receive j _ _ _ => j = i
  | .call j _ _ => j = i
  | .register j _ => j = i
  | .clear j => j = i
  | .clearHandler _ => False

/-- The nodes `i` and `j` have no handler object in common. -/
def Separate (P : Process S) (i j : Nat) : Prop :=
  ∀ k, ¬ (HandlerRef.user k ∈ (P.nodes i).refs ∧ HandlerRef.user k ∈ (P.nodes j).refs)

end Uecho.Spec
