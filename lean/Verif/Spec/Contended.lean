import Verif.Spec.Answered
/-!
# Specification vocabulary: executions in which the mutex of a node may be taken
-/
namespace Uecho.Spec
variable {S : Type}

/-- Executions like those of `Prompt`, in which moreover a receiver thread may find the mutex of the node taken when it hands
over a message: by the application, which is just then inside a call of the library (such as the `post_message` that
sent the request) or keeps the guard of the node. -/
inductive Contended (b : Build) (db : Database) (own : IpAddr → Option Nat) : Net S → List (Nat × Out) → Net S → Prop where
  | refl (n : Net S) : Contended b db own n [] n
  | step {n n₁ n₂ : Net S} {tr : List (Nat × Out)} {i : Nat} {outs : List Out} (h : Contended b db own n tr n₁)
      (h' : Reliable b db own n₁ i outs n₂) (hr : Routed own n₁ outs n₂) :
      Contended b db own n (tr ++ outs.map (fun o => (i, o))) n₂
  /-- a busy receiver thread calls the node, whose mutex is taken -/
  | taken {n n₁ : Net S} {tr : List (Nat × Out)} (h : Contended b db own n tr n₁) (l₁ l₂ : List Busy) (q : Busy)
      (os : List ObserverRef) (e : CallEnv) (h' : Host S) (outs : List Out) (hb : n₁.busy = l₁ ++ q :: l₂)
      (ht : q.todo = .node :: os) (hp : n₁.poisoned q.host .node = false) (he : e.nodeFree = false)
      (hi : (n₁.hosts q.host).invoke b db e q.msg .node = .ok (h', outs)) :
      Contended b db own n (tr ++ outs.map (fun o => (q.host, o)))
        { n₁.setHost q.host h' with busy := l₁ ++ { q with todo := os } :: l₂ }

end Uecho.Spec
