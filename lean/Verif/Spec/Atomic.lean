import Verif.Spec.Exchange
/-!
# Specification vocabulary for the moment at which a remote operation takes effect (C79)
-/
namespace Uecho.Spec
variable {S : Type}

/-- The execution with trace `tr` from `n₀` to `n` contains the step of host `i` from `n₁` to `n₂` that put out `outs`;
`pre` was put out before it and `post` after it. -/
structure Passes (b : Build) (db : Database) (own : IpAddr → Option Nat) (rule : HostOp S → Prop) (n₀ : Net S)
    (tr : List (Nat × Out)) (n : Net S) (pre : List (Nat × Out)) (n₁ : Net S) (i : Nat) (outs : List Out) (n₂ : Net S)
    (post : List (Nat × Out)) : Prop where
  trace : tr = pre ++ outs.map (fun o => (i, o)) ++ post
  before : Traced b db own rule n₀ pre n₁
  step : Net.Internal b db n₁ i outs n₂ ∨ ∃ op, rule op ∧ OwnInterfaces own i op ∧ Net.Api b db n₁ i op outs n₂
  after : Traced b db own rule n₂ post n

/-- The application files the properties of an object it adds under their own codes, and keeps them so when it changes
an object in place. -/
def Filed : HostOp S → Prop
  | .node (.addObject o) => KeysOk o
  | .node (.edit _ f) => ∀ o, KeysOk o → KeysOk (f o)
  | _ => True

/-- What the rules for applications say here. -/
def Disciplined (op : HostOp S) : Prop := NoAnswers op ∧ Filed op

/-- Between the states `n` and `n'` a node carries out the request `req` completely and `u` says so, or it refuses it
completely and `u` says so. -/
inductive Serves (n n' : Node S) (req u : Message) : Prop where
  | refused (svc : u.esvByte = errorByte req.esvByte) (same : n'.objects = n.objects)
  | done (pre : List Object) (dst dst' : Object) (post : List Object)
      (target : Targets n req pre dst post) (allowed : Allowed dst req)
      (svc : successByte req.esvByte = some u.esvByte)
      (objects : n'.objects = pre ++ dst' :: post) (code : dst'.code = dst.code)
      (attrs : ∀ c, (dst'.properties c).map attrsOf = (dst.properties c).map attrsOf)
      (written : ∀ c d p, lastWrite (writesOf req) c = some d → dst'.properties c = some p → p.data = d)
      (kept : (∀ h ∈ n.handlers, Passive h) → ∀ c, lastWrite (writesOf req) c = none → isMapCode c = false →
        dst'.properties c = dst.properties c)
      (read : req.esvByte = 0x62 → u.properties = dataOf dst' req.properties)
      (acked : req.esvByte = 0x61 → u.properties = ackOf req.properties)
      (both : req.esvByte = 0x6E → u.setProperties = ackOf req.setProperties ∧ u.getProperties = dataOf dst' req.getProperties)
      (single : req.esvByte ≠ 0x6E → u.setProperties = [] ∧ u.getProperties = [])

end Uecho.Spec
