import Verif.Model.Locks
/-!
# Specification vocabulary for blocking
-/
namespace Uecho.Locks

/-- The order in which the library takes its mutexes. -/
def rank : Lock → Nat
  | .outer _ => 0
  | .api _ => 1
  | .node => 2
  | .thread _ => 3
  | .notifier _ => 4
  | .obs _ => 5
  | .handler _ => 6
  | .leaf _ => 7

/-- A mutex of the application: its own ones and those around its handlers and observers. -/
def AppLock : Lock → Prop
  | .outer _ | .obs _ | .handler _ | .leaf _ => True
  | _ => False

/-- Rules for a thread of the application that holds the mutexes `H`: it locks its own mutexes in the order
of their ranks, releases what it holds, and calls the library only while it holds no mutex that a callback
may need. -/
def WellUsed : List Lock → List AppItem → Prop
  | H, [] => H = []
  | H, .lock l :: is => AppLock l ∧ (∀ h ∈ H, rank h < rank l) ∧ WellUsed (l :: H) is
  | H, .unlock l :: is => l ∈ H ∧ WellUsed (H.erase l) is
  | H, .call _ :: is => (∀ h ∈ H, rank h = 0) ∧ WellUsed H is
  | _, .panic :: _ => True

/-- Callbacks that obey the rules: they lock at most one of the application's inner mutexes at a time, and
never call the library. -/
inductive SafeCallback : Callback → Prop
  | nothing : SafeCallback (fun k => k)
  | panic : SafeCallback (fun _ => .panic)
  | work {c} : SafeCallback c → SafeCallback (fun k => .work (c k))
  | critical {c} (x : Nat) (mayPanic : Bool) : SafeCallback c →
      SafeCallback (fun k => .lock (.leaf x)
        (if mayPanic then .choice .panic (.unlock (.leaf x) (c k)) else .work (.unlock (.leaf x) (c k))))
  | choice {c d} : SafeCallback c → SafeCallback d → SafeCallback (fun k => .choice (c k) (d k))

/-- Observers whose callbacks obey the rules. -/
def SafeObserver : Observer → Prop
  | .node calls => ∀ c ∈ calls, SafeCallback c.2
  | .user cb => SafeCallback cb
  | _ => True

/-- An application that obeys the rules: any number of threads running any sequences of calls, any
datagrams, any observers and handlers in any order. -/
def safeWorld : World where
  app p := ∃ is, WellUsed [] is ∧ p = appProg is
  message s p := (∃ obs, (∀ o ∈ obs, SafeObserver o.2) ∧ p = messageProg s obs) ∨ p = errorProg s

/-- An application that does what it likes, also inside callbacks. -/
def anyWorld : World where
  app p := ∃ is, (∀ l, AppItem.lock l ∈ is → AppLock l) ∧ p = appProg is
  message s p := (∃ obs, p = messageProg s obs) ∨ p = errorProg s

/-- Everything that was asked for has been done: every thread of the application has finished (returned or
panicked), every receiver thread is gone or waits for a datagram and has not been told to stop, no mutex is
locked. -/
def Quiescent (σ : State) : Prop :=
  (∀ i, σ.prog (.app i) = .done) ∧
  (∀ s, σ.prog (.recv s) = .done ∨ (σ.prog (.recv s) = .idle s ∧ σ.flag s = false)) ∧
  ∀ l, (∀ s, l ≠ .thread s) → σ.owner l = none

/-- Exactly `n` steps of the threads, in any order, while the environment is silent. -/
inductive Steps : Nat → State → State → Prop
  | refl {σ} : Steps 0 σ σ
  | step {n σ τ τ'} : Steps n σ τ → Step τ τ' → Steps (n + 1) σ τ'

/-- A deadlock: every thread in `D` waits for a mutex owned by, or for the end of, a thread in `D`. -/
def Deadlock (σ : State) (D : Thread → Prop) : Prop :=
  ∀ t, D t → ∃ t' l, D t' ∧ σ.owner l = some t' ∧
    ((∃ k, σ.prog t = .lock l k) ∨ ∃ s k, l = .thread s ∧ σ.prog t = .join s k)

end Uecho.Locks
