import Verif.Model.Host
/-!
# Specification vocabulary for remote nodes built by the application
-/
namespace Uecho.Spec

/-- A call that changes a remote node. -/
inductive RemoteCall where
  | setAddr (a : SocketAddr)
  | addObject (o : Object)

/-- The call on the model. -/
def RemoteCall.apply (r : RemoteNode) : RemoteCall → RemoteNode
  | .setAddr a => r.setAddr a
  | .addObject o => r.addObject o

/-- The remote node after `RemoteNode::new` and these calls. -/
def builtRemote (cs : List RemoteCall) : RemoteNode := cs.foldl RemoteCall.apply RemoteNode.new

/-- The addresses set by the calls, in order. -/
def addrsSet (cs : List RemoteCall) : List SocketAddr :=
  cs.filterMap (fun c => match c with | .setAddr a => some a | .addObject _ => none)

/-- The objects added by the calls, in order. -/
def objectsAdded (cs : List RemoteCall) : List Object :=
  cs.filterMap (fun c => match c with | .addObject o => some o | .setAddr _ => none)

end Uecho.Spec
