import Verif.Spec.Told
import Verif.Spec.Controller
/-!
# Specification vocabulary: what controllers learn from notifications (C99)

`Tells` is in `Spec/Told.lean`, `IsProfileMessage` and `announcedCodes` in `Spec/Controller.lean`.
-/
namespace Uecho.Spec
variable {S : Type}

/-- A datagram sent from address `a` is on its way to a running receiver thread of host `j` with which a controller is
registered. -/
def Hears (n : Net S) (j : Nat) (a : SocketAddr) : Prop :=
  ∃ p ∈ n.flying, p.host = j ∧ p.src = a ∧
    ∃ s, (n.hosts j).threads[p.srv]? = some s ∧ s.thread = .running ∧ ObserverRef.controller ∈ s.observers

/-- The list `after` of remote nodes is `before` with the entries of the addresses that were heard replaced: the other
entries are as before, in the same order; then there is exactly one entry for each address heard, with objects with these
codes. -/
def Updated (heard : SocketAddr → Prop) (codes : List Nat) (before after : List RemoteNode) : Prop :=
  ∃ l, after = before.filter (fun r => decide (r.addr ∉ l.map RemoteNode.addr)) ++ l ∧ (l.map RemoteNode.addr).Nodup ∧
    (∀ a, a ∈ l.map RemoteNode.addr ↔ heard a) ∧ ∀ r ∈ l, r.objects.map (fun o => o.code.toNat) = codes

/-- Node descriptions sent one after the other by whatever hosts, the network coming to rest after each: from the network `n`
at rest the messages in the list are sent out, each with the network as it is right after it was sent; `n'` is the network at
rest in the end. -/
inductive Described (b : Build) (db : Database) (own : IpAddr → Option Nat) : Net S → List (Message × Net S) → Net S → Prop where
  | nil (n : Net S) : Described b db own n [] n
  | cons {n n₁ n₂ n' : Net S} {i : Nat} {m : Message} {outs : List Out} {tr : List (Nat × Out)} {l : List (Message × Net S)}
      (tells : Tells b db n i m outs n₁) (profile : IsProfileMessage m) (run : Prompt b db own n₁ tr n₂)
      (flying : n₂.flying = []) (busy : n₂.busy = []) (rest : Described b db own n₂ l n') :
      Described b db own n ((m, n₁) :: l) n'

end Uecho.Spec
