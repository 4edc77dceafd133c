import Verif.Spec.Handlers
import Verif.Model.MonoLight
import Verif.Spec.Database
/-!
# Specification vocabulary for the example light
-/
namespace Uecho.Spec

/-- What can happen to the program after its creation: it starts and stops the device, and messages arrive. -/
def LightOp : Op Bool → Prop
  | .start .. => True
  | .stop => True
  | .receive .. => True
  | _ => False

/-- `n` is the node of a light program (its `app` says whether the light is on) in a state it can reach. -/
def LightReached (b : Build) (n : Node Bool) : Prop :=
  ∃ ω₀ db uuid ω d n₀ ops outs, standardDb b ω₀ = .ok db ∧ (∀ i, (uuid i).length = 16) ∧
    monoLightNew b db uuid ω = .ok (d, n₀) ∧ n₀.run b ops = .ok (n, outs) ∧ ∀ op ∈ ops, LightOp op

/-- The message asks the light, in a single write without response (0x60), to set its operating status to
`v`. -/
def Orders (m : Message) (v : UInt8) : Prop :=
  m.esvByte = 0x60 ∧ m.deoj = 0x029101 ∧ m.properties = [⟨0x80, [v]⟩]

/-- The operating status the light reports agrees with the light. -/
def LightAgrees (n : Node Bool) : Prop :=
  n.property 0x029101 0x80 = some [if n.app then 0x30 else 0x31]

end Uecho.Spec
