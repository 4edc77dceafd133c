import Verif.Spec.Locks
/-!
# Lock ordering
-/
namespace Uecho.Locks

/-- The program of a thread that holds `H` takes mutexes in the order of their ranks. -/
def Ordered : List Lock → Prog → Prop
  | H, .done => H = []
  | H, .lock l k => (∀ s, l ≠ .thread s) ∧ (∀ h ∈ H, rank h < rank l) ∧ Ordered (l :: H) k
  | H, .tryLock l s f => (∀ s, l ≠ .thread s) ∧ Ordered (l :: H) s ∧ Ordered H f
  | H, .unlock l k => l ∈ H ∧ Ordered (H.erase l) k
  | H, .stop _ k => (∀ h ∈ H, rank h < 3) ∧ Ordered H k
  | H, .join _ k => (∀ h ∈ H, rank h < 3) ∧ Ordered H k
  | H, .work k => Ordered H k
  | H, .choice p q => Ordered H p ∧ Ordered H q
  | _, .panic => True
  | H, .idle s => H = [.thread s]

/-- What holds in every reachable state. -/
structure Inv (σ : State) : Prop where
  held : ∀ t, ∃ H, H.Nodup ∧ (∀ l, σ.owner l = some t ↔ l ∈ H) ∧ Ordered H (σ.prog t)
  stopped : ∀ t s k, σ.prog t = .join s k → σ.flag s = true
  threads : ∀ s t, σ.owner (.thread s) = some t → t = .recv s

/-- Size of a program. -/
def Prog.size : Prog → Nat
  | .done => 0
  | .lock _ k => k.size + 1
  | .tryLock _ s f => s.size + f.size + 1
  | .unlock _ k => k.size + 1
  | .stop _ k => k.size + 2
  | .join _ k => k.size + 1
  | .work k => k.size + 1
  | .choice p q => p.size + q.size + 1
  | .panic => 1
  | .idle _ => 1

theorem inv_init : Inv .init where
  held := fun _ => ⟨[], by simp, by simp [State.init], rfl⟩
  stopped := by intro t s k h; simp [State.init] at h
  threads := by intro s t h; simp [State.init] at h

/-- Changing the program of one thread only. -/
theorem Inv.setProg {σ : State} (h : Inv σ) {t : Thread} {p : Prog}
    (ho : ∀ H, H.Nodup → (∀ l, σ.owner l = some t ↔ l ∈ H) → Ordered H (σ.prog t) → Ordered H p)
    (hj : ∀ s k, p = .join s k → σ.flag s = true) : Inv (σ.setProg t p) where
  held := by
    intro t'
    obtain ⟨H, h1, h2, h3⟩ := h.held t'
    refine ⟨H, h1, h2, ?_⟩
    by_cases ht : t' = t
    · subst ht
      simp only [State.setProg, if_true]
      exact ho H h1 h2 h3
    · simp only [State.setProg, if_neg ht]; exact h3
  stopped := by
    intro t' s k hk
    by_cases ht : t' = t
    · subst ht
      simp only [State.setProg, if_true] at hk
      exact hj s k hk
    · simp only [State.setProg, if_neg ht] at hk
      exact h.stopped t' s k hk
  threads := h.threads

/-- A thread takes a free lock. -/
theorem Inv.acquire {σ : State} (h : Inv σ) {t : Thread} {l : Lock} {p : Prog} (hf : σ.owner l = none)
    (ho : ∀ H, Ordered H (σ.prog t) → (∀ l, σ.owner l = some t ↔ l ∈ H) → Ordered (l :: H) p)
    (hj : ∀ s k, p = .join s k → σ.flag s = true) (hth : ∀ s, l = .thread s → t = .recv s) :
    Inv ((σ.setOwner l (some t)).setProg t p) where
  held := by
    intro t'
    obtain ⟨H, h1, h2, h3⟩ := h.held t'
    by_cases ht : t' = t
    · subst ht
      have hl : l ∉ H := fun hm => by rw [(h2 l).mpr hm] at hf; simp at hf
      refine ⟨l :: H, List.nodup_cons.mpr ⟨hl, h1⟩, ?_, ?_⟩
      · intro l'
        by_cases hll : l' = l
        · simp [State.setProg, State.setOwner, hll]
        · simp [State.setProg, State.setOwner, hll, h2]
      · simp only [State.setProg, if_true]
        exact ho H h3 h2
    · refine ⟨H, h1, ?_, ?_⟩
      · intro l'
        by_cases hll : l' = l
        · subst hll
          simp only [State.setProg, State.setOwner, if_true, Option.some.injEq]
          rw [← h2, hf]
          simp [Ne.symm ht]
        · simp [State.setProg, State.setOwner, hll, h2]
      · simp only [State.setProg, if_neg ht]; exact h3
  stopped := by
    intro t' s k hk
    by_cases ht : t' = t
    · subst ht
      simp only [State.setProg, if_true] at hk
      exact hj s k hk
    · simp only [State.setProg, if_neg ht] at hk
      exact h.stopped t' s k hk
  threads := by
    intro s t' ht'
    simp only [State.setProg, State.setOwner] at ht'
    split at ht'
    · rename_i hl
      simp only [Option.some.injEq] at ht'
      rw [← ht']; exact hth s hl.symm
    · exact h.threads s t' ht'

/-- A thread releases one of its locks. -/
theorem Inv.release {σ : State} (h : Inv σ) {t : Thread} {l : Lock} {p : Prog} (hf : σ.owner l = some t)
    (ho : ∀ H, Ordered H (σ.prog t) → (∀ l, σ.owner l = some t ↔ l ∈ H) → Ordered (H.erase l) p)
    (hj : ∀ s k, p = .join s k → σ.flag s = true) :
    Inv ((σ.setOwner l none).setProg t p) where
  held := by
    intro t'
    obtain ⟨H, h1, h2, h3⟩ := h.held t'
    by_cases ht : t' = t
    · subst ht
      refine ⟨H.erase l, h1.erase l, ?_, ?_⟩
      · intro l'
        rw [h1.mem_erase_iff]
        by_cases hll : l' = l
        · simp [State.setProg, State.setOwner, hll]
        · simp [State.setProg, State.setOwner, hll, h2]
      · simp only [State.setProg, if_true]
        exact ho H h3 h2
    · refine ⟨H, h1, ?_, ?_⟩
      · intro l'
        by_cases hll : l' = l
        · subst hll
          simp only [State.setProg, State.setOwner, if_true]
          rw [← h2, hf]
          simp [Ne.symm ht]
        · simp [State.setProg, State.setOwner, hll, h2]
      · simp only [State.setProg, if_neg ht]; exact h3
  stopped := by
    intro t' s k hk
    by_cases ht : t' = t
    · subst ht
      simp only [State.setProg, if_true] at hk
      exact hj s k hk
    · simp only [State.setProg, if_neg ht] at hk
      exact h.stopped t' s k hk
  threads := by
    intro s t' ht'
    simp only [State.setProg, State.setOwner] at ht'
    split at ht'
    · simp at ht'
    · exact h.threads s t' ht'

theorem Inv.crash {σ : State} (h : Inv σ) (t : Thread) : Inv (σ.crash t) where
  held := by
    intro t'
    by_cases ht : t' = t
    · subst ht
      refine ⟨[], by simp, ?_, ?_⟩
      · intro l
        simp only [State.crash, List.not_mem_nil, iff_false]
        split <;> simp_all
      · simp [State.crash, Ordered]
    · obtain ⟨H, h1, h2, h3⟩ := h.held t'
      refine ⟨H, h1, ?_, ?_⟩
      · intro l
        rw [← h2]
        simp only [State.crash]
        split
        · rename_i ho
          rw [ho]
          simp [Ne.symm ht]
        · rfl
      · simp only [State.crash, if_neg ht]; exact h3
  stopped := by
    intro t' s k hk
    simp only [State.crash] at hk
    split at hk
    · simp at hk
    · exact h.stopped t' s k hk
  threads := by
    intro s t' ht'
    simp only [State.crash] at ht'
    split at ht'
    · simp at ht'
    · exact h.threads s t' ht'

/-- Any other change of the flags keeps the invariant if flags are only raised. -/
theorem Inv.raise {σ : State} (h : Inv σ) (f : Nat → Bool) (hf : ∀ s, σ.flag s = true → f s = true) :
    Inv { σ with flag := f } where
  held := h.held
  stopped := fun t s k hk => hf s (h.stopped t s k hk)
  threads := h.threads

/-- A program that never waits in a `join` it has not announced. -/
def NoJoin : Prog → Prop
  | .done => True
  | .lock _ k => NoJoin k
  | .tryLock _ s f => NoJoin s ∧ NoJoin f
  | .unlock _ k => NoJoin k
  | .stop _ k => NoJoin k
  | .join _ _ => False
  | .work k => NoJoin k
  | .choice p q => NoJoin p ∧ NoJoin q
  | .panic => True
  | .idle _ => True

/-- `NoJoin` for the continuations of all threads. -/
def Clear (p : Prog) : Prop := match p with
  | .join _ k => NoJoin k
  | p => NoJoin p

theorem noJoin_join {p : Prog} (h : NoJoin p) : ∀ s k, p ≠ .join s k := by
  intro s k hp; subst hp; exact h

theorem noJoin_clear {p : Prog} (h : NoJoin p) : Clear p := by
  cases p <;> first | exact h | exact absurd h (by simp [NoJoin])

structure Inv' (σ : State) : Prop extends Inv σ where
  clear : ∀ t, Clear (σ.prog t)

theorem step_inv {σ τ : State} (h : Inv' σ) (hs : Step σ τ) : Inv' τ := by
  have nj : ∀ {t : Thread} {p : Prog}, NoJoin p → ∀ s k, p = .join s k → σ.flag s = true :=
    fun hp s k hk => absurd hk (noJoin_join hp s k)
  have hclear : ∀ {t : Thread} {p : Prog} {ρ : State}, (∀ t', ρ.prog t' = σ.prog t') → Clear p →
      ∀ t', Clear ((ρ.setProg t p).prog t') := by
    intro t p ρ hρ hp t'
    simp only [State.setProg]
    split
    · exact hp
    · rw [hρ]; exact h.clear t'
  have hcrash : ∀ t, Inv' (σ.crash t) := by
    intro t
    refine ⟨h.toInv.crash t, ?_⟩
    intro t'
    simp only [State.crash]
    split
    · trivial
    · exact h.clear t'
  cases hs with
  | @lock t l k hp hf _ =>
    have hc := h.clear t
    rw [hp] at hc
    refine ⟨h.toInv.acquire hf ?_ (nj (t := t) hc) ?_, hclear (fun _ => rfl) (noJoin_clear hc)⟩
    · intro H ho _; rw [hp] at ho; exact ho.2.2
    · intro s hl
      obtain ⟨H, _, _, ho⟩ := h.held t
      rw [hp] at ho
      exact absurd hl (ho.1 s)
  | lockPoisoned => exact hcrash _
  | @tryOk t l s f hp hf _ =>
    have hc := h.clear t
    rw [hp] at hc
    refine ⟨h.toInv.acquire hf ?_ (nj (t := t) hc.1) ?_, hclear (fun _ => rfl) (noJoin_clear hc.1)⟩
    · intro H ho _; rw [hp] at ho; exact ho.2.1
    · intro s hl
      obtain ⟨H, _, _, ho⟩ := h.held t
      rw [hp] at ho
      exact absurd hl (ho.1 s)
  | @tryFail t l s f hp _ =>
    have hc := h.clear t
    rw [hp] at hc
    refine ⟨h.toInv.setProg ?_ (nj (t := t) hc.2), hclear (fun _ => rfl) (noJoin_clear hc.2)⟩
    intro H _ _ ho; rw [hp] at ho; exact ho.2.2
  | @unlock t l k hp hf =>
    have hc := h.clear t
    rw [hp] at hc
    refine ⟨h.toInv.release hf ?_ (nj (t := t) hc), hclear (fun _ => rfl) (noJoin_clear hc)⟩
    intro H ho _; rw [hp] at ho; exact ho.2
  | @stop t s k hp =>
    have hc := h.clear t
    rw [hp] at hc
    have hr := h.toInv.raise (fun s' => if s' = s then true else σ.flag s') (by intro s' hs'; simp [hs'])
    refine ⟨hr.setProg ?_ ?_, hclear (fun _ => rfl) hc⟩
    · intro H _ _ ho
      change Ordered H (σ.prog t) at ho
      rw [hp] at ho; exact ho
    · intro s' k' he
      simp only [Prog.join.injEq] at he
      simp [he.1]
  | @join t s k hp _ _ =>
    have hc := h.clear t
    rw [hp] at hc
    refine ⟨h.toInv.setProg ?_ (nj (t := t) hc), hclear (fun _ => rfl) (noJoin_clear hc)⟩
    intro H _ _ ho; rw [hp] at ho; exact ho.2
  | joinCrashed => exact hcrash _
  | @work t k hp =>
    have hc := h.clear t
    rw [hp] at hc
    refine ⟨h.toInv.setProg ?_ (nj (t := t) hc), hclear (fun _ => rfl) (noJoin_clear hc)⟩
    intro H _ _ ho; rw [hp] at ho; exact ho
  | @choiceL t p q hp =>
    have hc := h.clear t
    rw [hp] at hc
    refine ⟨h.toInv.setProg ?_ (nj (t := t) hc.1), hclear (fun _ => rfl) (noJoin_clear hc.1)⟩
    intro H _ _ ho; rw [hp] at ho; exact ho.1
  | @choiceR t p q hp =>
    have hc := h.clear t
    rw [hp] at hc
    refine ⟨h.toInv.setProg ?_ (nj (t := t) hc.2), hclear (fun _ => rfl) (noJoin_clear hc.2)⟩
    intro H _ _ ho; rw [hp] at ho; exact ho.2
  | panic => exact hcrash _
  | @exit t s hp how hfl =>
    refine ⟨h.toInv.release how ?_ (by intro _ _ he; simp at he), hclear (fun _ => rfl) trivial⟩
    intro H ho _
    rw [hp] at ho
    rw [ho]; simp [Ordered]

end Uecho.Locks
