import Verif.Lemmas.LocksLibrary
/-!
# C50 No deadlock; C57 what a panic leaves behind
-/
namespace Uecho.Locks

theorem steps_reaches {W : World} {ρ σ τ : State} {n : Nat} (h : Reaches W ρ σ) (hs : Steps n σ τ) :
    Reaches W ρ τ := by
  induction hs with
  | refl => exact h
  | step _ hs ih => exact .step (ih h) hs

/-- C50 for applications that obey the rules of `safeWorld` (callbacks do not call the library; nobody calls
the library while holding a mutex that a callback needs): after any history of calls, datagrams and panics in
any interleaving, however the threads are scheduled from there, they run out of steps, and when they have,
every call has returned or panicked, every receiver thread has handled its datagram, every receiver thread
that was told to stop is gone, and no mutex is locked. What is missing from the full property is in
`C50_fails_handler`, `C50_fails_example` and `C50_fails_observer`. -/
theorem C50_no_deadlock_partial (σ : State) (h : Reaches safeWorld .init σ) :
    (∃ N, ∀ n τ, Steps n σ τ → n ≤ N) ∧
    (∀ n τ, Steps n σ τ → (∃ τ', Step τ τ') ∨ Quiescent τ) := by
  constructor
  · obtain ⟨ts, hl⟩ := reaches_live h
    refine ⟨remaining σ ts, fun n τ hs => ?_⟩
    have : Live τ ts ∧ n + remaining τ ts ≤ remaining σ ts := by
      induction hs with
      | refl => exact ⟨hl, by omega⟩
      | step _ hs ih =>
        obtain ⟨hl', hr⟩ := ih h hl
        obtain ⟨hl'', hr'⟩ := step_live hl' hs
        exact ⟨hl'', by omega⟩
    omega
  · intro n τ hs
    by_cases hx : ∃ τ', Step τ τ'
    · exact .inl hx
    · exact .inr (stuck_quiescent (reaches_inv (steps_reaches h hs)) (fun τ' ht => hx ⟨τ', ht⟩))

/-- A deadlock lasts for ever, whatever the other threads and the environment do. -/
theorem deadlock_forever {W : World} {σ τ : State} {D : Thread → Prop} (h : Deadlock σ D) (hr : Reaches W σ τ) :
    Deadlock τ D := by
  have main : ∀ {σ τ : State} (_ : Deadlock σ D) (u : Thread), ¬ D u → (∀ t, t ≠ u → τ.prog t = σ.prog t) →
      (∀ l t, σ.owner l = some t → t ≠ u → τ.owner l = some t) → Deadlock τ D := by
    intro σ τ h u hu hp ho t ht
    obtain ⟨t', l, h1, h2, h3⟩ := h t ht
    refine ⟨t', l, h1, ho l t' h2 (fun he => hu (he ▸ h1)), ?_⟩
    rw [hp t (fun he => hu (he ▸ ht))]
    exact h3
  have hstuck : ∀ {σ : State} (_ : Deadlock σ D) (t : Thread), D t →
      (∃ l k, σ.prog t = .lock l k ∧ σ.owner l ≠ none) ∨
      (∃ s k, σ.prog t = .join s k ∧ σ.owner (.thread s) ≠ none) := by
    intro σ h t ht
    obtain ⟨t', l, _, h2, h3⟩ := h t ht
    rcases h3 with ⟨k, hk⟩ | ⟨s, k, rfl, hk⟩
    · exact .inl ⟨l, k, hk, by simp [h2]⟩
    · exact .inr ⟨s, k, hk, by simp [h2]⟩
  have hsp : ∀ (ρ : State) (u t : Thread) (p : Prog), t ≠ u → (ρ.setProg u p).prog t = ρ.prog t := by
    intro ρ u t p ht; simp [State.setProg, ht]
  have hso : ∀ (ρ : State) (u : Thread) (p : Prog) (l l' : Lock) (o : Option Thread), l' ≠ l →
      ((ρ.setOwner l o).setProg u p).owner l' = ρ.owner l' := by
    intro ρ u p l l' o hl; simp [State.setProg, State.setOwner, hl]
  have hcr : ∀ {σ : State} (_ : Deadlock σ D) (u : Thread), ¬ D u → Deadlock (σ.crash u) D := by
    intro σ h u hu
    refine main h u hu (fun t ht => by simp [State.crash, ht]) ?_
    intro l t ho ht
    simp [State.crash, ho, ht]
  induction hr with
  | refl => exact h
  | @step σ τ _ hs ih =>
    have notD : ∀ u : Thread, (∀ l k, σ.prog u = .lock l k → σ.owner l = none) →
        (∀ s k, σ.prog u = .join s k → σ.owner (.thread s) = none) → ¬ D u := by
      intro u h1 h2 hu
      rcases hstuck ih u hu with ⟨l, k, hk, ho⟩ | ⟨s, k, hk, ho⟩
      · exact ho (h1 l k hk)
      · exact ho (h2 s k hk)
    cases hs with
    | @lock t l k hp hf _ =>
      refine main ih t (notD t (by rw [hp]; intro _ _ he; cases he; exact hf) (by simp [hp]))
        (fun t' ht => hsp _ _ _ _ ht) ?_
      intro l' t' ho ht
      rw [hso]
      · exact ho
      · intro he; subst he; rw [hf] at ho; simp at ho
    | @lockPoisoned t l k hp hf _ =>
      exact hcr ih t (notD t (by rw [hp]; intro _ _ he; cases he; exact hf) (by simp [hp]))
    | @tryOk t l s f hp hf _ =>
      refine main ih t (notD t (by simp [hp]) (by simp [hp]))
        (fun t' ht => hsp _ _ _ _ ht) ?_
      intro l' t' ho ht
      rw [hso]
      · exact ho
      · intro he; subst he; rw [hf] at ho; simp at ho
    | @tryFail t l s f hp _ =>
      exact main ih t (notD t (by simp [hp]) (by simp [hp])) (fun t' ht => hsp _ _ _ _ ht) (fun _ _ ho _ => ho)
    | @unlock t l k hp hf =>
      refine main ih t (notD t (by simp [hp]) (by simp [hp]))
        (fun t' ht => hsp _ _ _ _ ht) ?_
      intro l' t' ho ht
      rw [hso]
      · exact ho
      · intro he; subst he; rw [hf] at ho; simp only [Option.some.injEq] at ho; exact ht ho.symm
    | @stop t s k hp =>
      exact main ih t (notD t (by simp [hp]) (by simp [hp])) (fun t' ht => hsp _ _ _ _ ht) (fun _ _ ho _ => ho)
    | @join t s k hp hf _ =>
      exact main ih t (notD t (by simp [hp]) (by rw [hp]; intro _ _ he; cases he; exact hf))
        (fun t' ht => hsp _ _ _ _ ht) (fun _ _ ho _ => ho)
    | @joinCrashed t s k hp hf _ =>
      exact hcr ih t (notD t (by simp [hp]) (by rw [hp]; intro _ _ he; cases he; exact hf))
    | @work t k hp =>
      exact main ih t (notD t (by simp [hp]) (by simp [hp])) (fun t' ht => hsp _ _ _ _ ht) (fun _ _ ho _ => ho)
    | @choiceL t p q hp =>
      exact main ih t (notD t (by simp [hp]) (by simp [hp])) (fun t' ht => hsp _ _ _ _ ht) (fun _ _ ho _ => ho)
    | @choiceR t p q hp =>
      exact main ih t (notD t (by simp [hp]) (by simp [hp])) (fun t' ht => hsp _ _ _ _ ht) (fun _ _ ho _ => ho)
    | @panic t hp => exact hcr ih t (notD t (by simp [hp]) (by simp [hp]))
    | @exit t s hp hf _ =>
      refine main ih t (notD t (by simp [hp]) (by simp [hp]))
        (fun t' ht => hsp _ _ _ _ ht) ?_
      intro l' t' ho ht
      rw [hso]
      · exact ho
      · intro he; subst he; rw [hf] at ho; simp only [Option.some.injEq] at ho; exact ht ho.symm
  | @env σ τ _ he ih =>
    have notD : ∀ u : Thread, (∀ l k, σ.prog u ≠ .lock l k) → (∀ s k, σ.prog u ≠ .join s k) → ¬ D u := by
      intro u h1 h2 hu
      rcases hstuck ih u hu with ⟨l, k, hk, _⟩ | ⟨s, k, hk, _⟩
      · exact h1 l k hk
      · exact h2 s k hk
    cases he with
    | @app i p _ hp =>
      exact main ih (.app i) (notD _ (by simp [hp]) (by simp [hp])) (fun t' ht => hsp _ _ _ _ ht) (fun _ _ ho _ => ho)
    | @spawn s hp hf _ _ =>
      refine main ih (.recv s) (notD _ (by simp [hp]) (by simp [hp]))
        (fun t' ht => hsp _ _ _ _ ht) ?_
      intro l' t' ho ht
      rw [hso]
      · exact ho
      · intro he; subst he; rw [hf] at ho; simp at ho
    | @message s p _ hp =>
      exact main ih (.recv s) (notD _ (by simp [hp]) (by simp [hp])) (fun t' ht => hsp _ _ _ _ ht) (fun _ _ ho _ => ho)

/-- C50: a thread in a deadlock never returns. -/
theorem C50_deadlock_lasts (W : World) (σ τ : State) (D : Thread → Prop) (h : Deadlock σ D) (hr : Reaches W σ τ)
    (t : Thread) (ht : D t) : τ.prog t ≠ .done := by
  obtain ⟨_, _, _, _, h3⟩ := deadlock_forever h hr t ht
  intro hd
  rcases h3 with ⟨k, hk⟩ | ⟨s, k, _, hk⟩ <;> rw [hd] at hk <;> simp at hk

/-- C50: an application that obeys the rules is never in a deadlock. -/
theorem C50_never_deadlocked_partial (σ : State) (h : Reaches safeWorld .init σ) (D : Thread → Prop)
    (hd : Deadlock σ D) : ∀ t, ¬ D t := by
  obtain ⟨⟨N, hN⟩, hq⟩ := C50_no_deadlock_partial σ h
  have : ∃ n τ, Steps n σ τ ∧ Quiescent τ := by
    by_cases hx : ∃ n τ, Steps n σ τ ∧ Quiescent τ
    · exact hx
    · have hall : ∀ n, ∃ τ, Steps n σ τ := by
        intro n
        induction n with
        | zero => exact ⟨σ, .refl⟩
        | succ n ih =>
          obtain ⟨τ, hs⟩ := ih
          rcases hq n τ hs with ⟨τ', ht⟩ | hqu
          · exact ⟨τ', .step hs ht⟩
          · exact absurd ⟨n, τ, hs, hqu⟩ hx
      obtain ⟨τ, hs⟩ := hall (N + 1)
      have := hN _ _ hs
      omega
  obtain ⟨n, τ, hs, hqu⟩ := this
  intro t ht
  obtain ⟨_, _, _, _, h3⟩ := deadlock_forever hd (steps_reaches (W := safeWorld) .refl hs) t ht
  have hp : τ.prog t = .done ∨ ∃ s, τ.prog t = .idle s := by
    cases t with
    | app i => exact .inl (hqu.1 i)
    | recv s =>
      rcases hqu.2.1 s with hd | hi
      · exact .inl hd
      · exact .inr ⟨s, hi.1⟩
  rcases h3 with ⟨k, hk⟩ | ⟨s, k, _, hk⟩ <;> rcases hp with hp | ⟨s', hp⟩ <;> rw [hp] at hk <;> simp at hk

/-! ## Schedules -/

/-- One step of thread `t`; `b` decides branches. -/
def next (σ : State) (t : Thread) (b : Bool) : Option State :=
  match σ.prog t with
  | .lock l k =>
    if σ.owner l = none then
      if σ.poisoned l = false then some ((σ.setOwner l (some t)).setProg t k) else some (σ.crash t)
    else none
  | .tryLock l s f =>
    if σ.owner l = none ∧ σ.poisoned l = false then some ((σ.setOwner l (some t)).setProg t s)
    else some (σ.setProg t f)
  | .unlock l k => if σ.owner l = some t then some ((σ.setOwner l none).setProg t k) else none
  | .stop s k => some ({ σ with flag := fun s' => if s' = s then true else σ.flag s' }.setProg t (.join s k))
  | .work k => some (σ.setProg t k)
  | .choice p q => some (if b then σ.setProg t p else σ.setProg t q)
  | .panic => some (σ.crash t)
  | _ => none

theorem next_step {σ τ : State} {t : Thread} {b : Bool} (h : next σ t b = some τ) : Step σ τ := by
  unfold next at h
  split at h
  · rename_i l k hp
    split at h
    · split at h <;> cases h
      · exact .lock hp (by assumption) (by assumption)
      · exact .lockPoisoned hp (by assumption) (by simp_all)
    · simp at h
  · rename_i l s f hp
    split at h <;> cases h
    · rename_i hc; exact .tryOk hp hc.1 hc.2
    · rename_i hc
      refine .tryFail hp ?_
      by_cases h1 : σ.owner l = none
      · right
        cases h2 : σ.poisoned l with
        | false => exact absurd ⟨h1, h2⟩ hc
        | true => rfl
      · exact .inl h1
  · split at h <;> cases h
    exact .unlock (by assumption) (by assumption)
  · cases h; exact .stop (by assumption)
  · cases h; exact .work (by assumption)
  · rename_i p q hp
    cases b <;> cases h
    · exact .choiceR hp
    · exact .choiceL hp
  · cases h; exact .panic (by assumption)
  · simp at h

/-- Threads stepping in the given order. -/
def schedule : List (Thread × Bool) → State → Option State
  | [], σ => some σ
  | (t, b) :: ts, σ => (next σ t b).bind (schedule ts)

theorem schedule_reaches {W : World} {ρ : State} : ∀ {ts : List (Thread × Bool)} {σ τ : State}, Reaches W ρ σ →
    schedule ts σ = some τ → Reaches W ρ τ
  | [], _, _, h, hs => by cases hs; exact h
  | (t, b) :: ts, σ, τ, h, hs => by
    simp only [schedule, Option.bind_eq_some_iff] at hs
    obtain ⟨υ, h1, h2⟩ := hs
    exact schedule_reaches (.step h (next_step h1)) h2

/-- Server 0 is running and has received a datagram; application thread 0 runs `is`. -/
def exState (obs : List (Nat × Observer)) (is : List AppItem) : State :=
  (((State.init.setOwner (.thread 0) (some (.recv 0))).setProg (.recv 0) (.idle 0)).setProg (.recv 0)
    (messageProg 0 obs)).setProg (.app 0) (appProg is)

theorem exState_reaches {W : World} {obs is} (hm : W.message 0 (messageProg 0 obs)) (ha : W.app (appProg is)) :
    Reaches W .init (exState obs is) :=
  .env (.env (.env .refl (.spawn rfl rfl rfl rfl)) (.message hm rfl)) (.app ha rfl)

/-- C50 fails when a request handler calls its own device (for example `Device::set_property` from inside
`property_request_received`): the receiver thread waits for the node mutex it holds itself. -/
theorem C50_fails_handler : ∃ σ, Reaches anyWorld .init σ ∧ Deadlock σ (fun t => t = .recv 0) := by
  refine ⟨_, schedule_reaches (ts := (List.replicate 6 (.recv 0, false)) ++ (List.replicate 2 (.recv 0, false)))
    (exState_reaches (obs := [(0, .node [(0, (Call.simple 0).prog)])]) (is := [])
      (.inl ⟨_, rfl⟩) ⟨_, by simp, rfl⟩) rfl, ?_⟩
  rintro t rfl
  exact ⟨.recv 0, .node, rfl, rfl, .inl ⟨_, rfl⟩⟩

/-- C50 fails for the way the example programs use the library (examples/monolight/monolight.rs:117:
`ml.lock().unwrap().stop()` on the `Arc<Mutex<MonoLight>>` that is also the request handler): the application
holds the handler's mutex and waits for the node mutex, the receiver holds the node mutex and waits for the
handler's. -/
theorem C50_fails_example : ∃ σ, Reaches anyWorld .init σ ∧
    Deadlock σ (fun t => t = .recv 0 ∨ t = .app 0) := by
  refine ⟨_, schedule_reaches (ts := List.replicate 6 (.recv 0, false) ++ List.replicate 2 (.app 0, false))
    (exState_reaches (obs := [(0, .node [(0, fun k => k)])])
      (is := [.lock (.handler 0), .call (.stop 0 [0]), .unlock (.handler 0)])
      (.inl ⟨_, rfl⟩) ⟨_, by simp [AppLock], rfl⟩) rfl, ?_⟩
  rintro t (rfl | rfl)
  · exact ⟨.app 0, .handler 0, .inr rfl, rfl, .inl ⟨_, rfl⟩⟩
  · exact ⟨.recv 0, .node, .inl rfl, rfl, .inl ⟨_, rfl⟩⟩

/-- C50 fails when an observer of the application calls its controller or device while the application stops
it: `stop` holds the mutexes and waits for the receiver thread, which waits for the mutexes. -/
theorem C50_fails_observer : ∃ σ, Reaches anyWorld .init σ ∧
    Deadlock σ (fun t => t = .recv 0 ∨ t = .app 0) := by
  refine ⟨_, schedule_reaches (ts := List.replicate 4 (.app 0, false) ++ List.replicate 4 (.recv 0, false))
    (exState_reaches (obs := [(0, .user (Call.simple 0).prog)])
      (is := [.call (.stop 0 [0])])
      (.inl ⟨_, rfl⟩) ⟨_, by simp, rfl⟩) rfl, ?_⟩
  rintro t (rfl | rfl)
  · exact ⟨.app 0, .api 0, .inr rfl, rfl, .inl ⟨_, rfl⟩⟩
  · exact ⟨.recv 0, .thread 0, .inl rfl, rfl, .inr ⟨0, _, rfl, rfl⟩⟩

/-! ## A concrete application that obeys the rules -/

/-- An application that locks its handler, releases it, and then stops the device, while a request is being
handled by that handler, which itself uses a mutex of the application. -/
def exSafe : State :=
  exState [(0, .node [(0, fun k => .lock (.leaf 0) (.work (.unlock (.leaf 0) k)))]), (1, .controller 1)]
    [.lock (.outer 0), .lock (.handler 0), .unlock (.handler 0), .call (.stop 0 [0]), .unlock (.outer 0)]

theorem exSafe_reaches : Reaches safeWorld .init exSafe := by
  refine exState_reaches (.inl ⟨_, ?_, rfl⟩) ⟨_, ?_, rfl⟩
  · intro o ho
    simp only [List.mem_cons, List.not_mem_nil, or_false] at ho
    rcases ho with rfl | rfl
    · intro c hc
      simp only [List.mem_cons, List.not_mem_nil, or_false] at hc
      subst hc
      exact SafeCallback.critical 0 false .nothing
    · trivial
  · simp [WellUsed, AppLock, rank]

/-- From there the receiver and the application meet on the handler's mutex: the receiver waits, the
application is about to release it. -/
example : ∃ σ, Reaches safeWorld .init σ ∧ ¬ Quiescent σ ∧ σ.owner (.handler 0) = some (.app 0) ∧
    (∃ k, σ.prog (.recv 0) = .lock (.handler 0) k) ∧ ∃ k, σ.prog (.app 0) = .unlock (.handler 0) k := by
  refine ⟨_, schedule_reaches (ts := List.replicate 6 (.recv 0, false) ++ List.replicate 2 (.app 0, false))
    exSafe_reaches rfl, ?_, rfl, ⟨_, rfl⟩, _, rfl⟩
  intro h
  exact absurd (h.1 0) (by decide)

/-! ## Poison -/

/-- C57: once a panic has poisoned a mutex, nobody ever owns it again, whatever happens: every later
`lock().unwrap()` panics, every `try_lock` fails. -/
theorem C57_poison_lasts (W : World) (σ τ : State) (l : Lock) (hl : ∀ s, l ≠ .thread s)
    (hp : σ.poisoned l = true) (hf : σ.owner l = none) (hr : Reaches W σ τ) :
    τ.poisoned l = true ∧ τ.owner l = none := by
  induction hr with
  | refl => exact ⟨hp, hf⟩
  | @step σ τ _ hs ih =>
    have hcr : ∀ t, (σ.crash t).poisoned l = true ∧ (σ.crash t).owner l = none := by
      intro t; simp [State.crash, ih.1, ih.2]
    have hset : ∀ (l' : Lock) (o : Option Thread) (t : Thread) (p : Prog), (l' = l → o = none) →
        ((σ.setOwner l' o).setProg t p).poisoned l = true ∧ ((σ.setOwner l' o).setProg t p).owner l = none := by
      intro l' o t p ho
      refine ⟨ih.1, ?_⟩
      simp only [State.setProg, State.setOwner]
      split
      · rename_i he; exact ho he.symm
      · exact ih.2
    cases hs with
    | lock hp hf hq => exact hset _ _ _ _ (fun he => by rw [he, ih.1] at hq; simp at hq)
    | lockPoisoned => exact hcr _
    | tryOk hp hf hq => exact hset _ _ _ _ (fun he => by rw [he, ih.1] at hq; simp at hq)
    | tryFail => exact ih
    | unlock => exact hset _ _ _ _ (fun _ => rfl)
    | stop => exact ih
    | join => exact ih
    | joinCrashed => exact hcr _
    | work => exact ih
    | choiceL => exact ih
    | choiceR => exact ih
    | panic => exact hcr _
    | exit => exact hset _ _ _ _ (fun _ => rfl)
  | @env σ τ _ he ih =>
    cases he with
    | app => exact ih
    | spawn =>
      refine ⟨ih.1, ?_⟩
      simp only [State.setProg, State.setOwner, if_neg (hl _)]
      exact ih.2
    | message => exact ih

/-- A thread at a poisoned mutex stays there or panics. -/
theorem poisoned_step {σ τ : State} {t : Thread} {l : Lock} {k : Prog} (hk : σ.prog t = .lock l k)
    (hp : σ.poisoned l = true) (hs : Step σ τ) : τ.prog t = .lock l k ∨ τ.crashed t = true := by
  have hset : ∀ (ρ : State) (u : Thread) (p : Prog), ρ.prog = σ.prog → u ≠ t → (ρ.setProg u p).prog t = .lock l k := by
    intro ρ u p hρ hu
    simp only [State.setProg, if_neg (Ne.symm hu), hρ]; exact hk
  have hcr : ∀ u, (σ.crash u).prog t = .lock l k ∨ (σ.crash u).crashed t = true := by
    intro u
    by_cases hu : t = u
    · right; simp [State.crash, hu]
    · left; simp [State.crash, hu, hk]
  cases hs with
  | @lock u l' k' hu hf hq =>
    refine .inl (hset _ u _ rfl ?_)
    intro he; subst he; rw [hk] at hu; cases hu; rw [hp] at hq; simp at hq
  | lockPoisoned => exact hcr _
  | @tryOk u l' _ _ hu => exact .inl (hset _ u _ rfl (fun he => by subst he; rw [hk] at hu; simp at hu))
  | @tryFail u l' _ _ hu => exact .inl (hset _ u _ rfl (fun he => by subst he; rw [hk] at hu; simp at hu))
  | @unlock u l' _ hu => exact .inl (hset _ u _ rfl (fun he => by subst he; rw [hk] at hu; simp at hu))
  | @stop u _ _ hu => exact .inl (hset _ u _ rfl (fun he => by subst he; rw [hk] at hu; simp at hu))
  | @join u _ _ hu => exact .inl (hset _ u _ rfl (fun he => by subst he; rw [hk] at hu; simp at hu))
  | joinCrashed => exact hcr _
  | @work u _ hu => exact .inl (hset _ u _ rfl (fun he => by subst he; rw [hk] at hu; simp at hu))
  | @choiceL u _ _ hu => exact .inl (hset _ u _ rfl (fun he => by subst he; rw [hk] at hu; simp at hu))
  | @choiceR u _ _ hu => exact .inl (hset _ u _ rfl (fun he => by subst he; rw [hk] at hu; simp at hu))
  | panic => exact hcr _
  | @exit u _ hu => exact .inl (hset _ u _ rfl (fun he => by subst he; rw [hk] at hu; simp at hu))

/-- C57 fails: one datagram on which the node panics (`C57_fails_response` gives one) is enough. From then on
every thread that calls a method of `Device`, or one of `Controller` that uses the node, panics or waits for
ever, and never gets past its `node.lock().unwrap()`. -/
theorem C57_fails_poisoned : ∃ σ, Reaches safeWorld .init σ ∧
    ∀ τ, Reaches safeWorld σ τ →
      τ.owner .node = none ∧
      ∀ t k, τ.prog t = .lock .node k →
        Step τ (τ.crash t) ∧ ∀ τ', Step τ τ' → τ'.prog t = .lock .node k ∨ τ'.crashed t = true := by
  have hex : Reaches safeWorld .init (exState [(0, .node [])] []) :=
    exState_reaches (.inl ⟨_, by simp [SafeObserver], rfl⟩)
      ⟨[], by simp [WellUsed], rfl⟩
  refine ⟨_, schedule_reaches (ts := List.replicate 5 (.recv 0, false) ++ [(.recv 0, true), (.recv 0, true)]) hex rfl, ?_⟩
  intro τ hr
  obtain ⟨h1, h2⟩ := C57_poison_lasts safeWorld _ τ .node (by simp) (by rfl) (by rfl) hr
  refine ⟨h2, fun t k hk => ⟨.lockPoisoned hk h2 h1, fun τ' hs => ?_⟩⟩
  exact poisoned_step hk h1 hs

end Uecho.Locks
