import Verif.Lemmas.Locks
/-!
# The library takes its mutexes in order
-/
namespace Uecho.Locks

/-- Ordered, and every wait for a thread is preceded by telling it to stop. -/
def Fine (H : List Lock) (p : Prog) : Prop := Ordered H p ∧ NoJoin p

theorem Fine.work {H k} (h : Fine H k) : Fine H (.work k) := ⟨h.1, h.2⟩

theorem Fine.choice {H p q} (h : Fine H p) (h' : Fine H q) : Fine H (.choice p q) := ⟨⟨h.1, h'.1⟩, h.2, h'.2⟩

theorem Fine.panic {H} : Fine H .panic := ⟨trivial, trivial⟩

theorem Fine.lock {H l k} (hl : ∀ s, l ≠ .thread s) (hr : ∀ h ∈ H, rank h < rank l) (h : Fine (l :: H) k) :
    Fine H (.lock l k) := ⟨⟨hl, hr, h.1⟩, h.2⟩

theorem Fine.tryLock {H l p q} (hl : ∀ s, l ≠ .thread s) (h : Fine (l :: H) p) (h' : Fine H q) :
    Fine H (.tryLock l p q) := ⟨⟨hl, h.1, h'.1⟩, h.2, h'.2⟩

theorem Fine.unlock {H l k} (h : Fine H k) : Fine (l :: H) (.unlock l k) := by
  refine ⟨⟨by simp, ?_⟩, h.2⟩
  rw [List.erase_cons_head]; exact h.1

theorem Fine.stop {H s k} (hr : ∀ h ∈ H, rank h < 3) (h : Fine H k) : Fine H (.stop s k) := ⟨⟨hr, h.1⟩, h.2⟩

/-- A body that may run while `H` is held. -/
def Body (H : List Lock) (b : Prog → Prog) : Prop := ∀ k, Fine H k → Fine H (b k)

theorem Body.withLock {H l b} (hl : ∀ s, l ≠ .thread s) (hr : ∀ h ∈ H, rank h < rank l) (hb : Body (l :: H) b) :
    Body H (withLock l b) := fun _ hk => Fine.lock hl hr (hb _ (Fine.unlock hk))

theorem Body.work {H} : Body H .work := fun _ h => h.work

theorem Body.seq {H} {bs : List (Prog → Prog)} (h : ∀ b ∈ bs, Body H b) : Body H (seq bs) := by
  induction bs with
  | nil => intro k hk; exact hk
  | cons b bs ih =>
    intro k hk
    exact h b (by simp) _ (ih (fun b hb => h b (by simp [hb])) k hk)

theorem Body.stops {H} {ss : List Nat} (hr : ∀ h ∈ H, rank h < 3) :
    Body H (Locks.seq (ss.map (fun s => Prog.stop s))) := by
  refine Body.seq ?_
  intro b hb
  simp only [List.mem_map] at hb
  obtain ⟨s, _, rfl⟩ := hb
  exact fun k hk => Fine.stop hr hk

theorem Body.nodeStart {H ss n} (hr : ∀ h ∈ H, rank h < 3) : Body H (nodeStartBody ss n) := by
  intro k hk
  refine Fine.choice (Body.stops hr k hk) (Body.seq ?_ _ hk.work)
  intro b hb
  rw [List.eq_of_mem_replicate hb]
  refine Body.seq ?_
  intro b hb
  simp only [List.mem_map] at hb
  obtain ⟨s, _, rfl⟩ := hb
  refine Body.withLock (by simp) ?_ Body.work
  intro h hh
  have := hr h hh
  show rank h < 4; omega

theorem Body.nodeStop {H ss} (hr : ∀ h ∈ H, rank h < 3) : Body H (nodeStopBody ss) := by
  intro k hk
  exact (Body.stops hr k hk).work

/-- Every call of the API may be made while only outer mutexes are held. -/
theorem Call.body (c : Call) {H : List Lock} (h0 : ∀ h ∈ H, rank h = 0) : Body H c.prog := by
  have hapi : ∀ i, ∀ h ∈ H, rank h < rank (.api i) := by
    intro i h hh; rw [h0 h hh]; exact Nat.zero_lt_one
  have hnode : ∀ h ∈ H, rank h < rank .node := by
    intro h hh; rw [h0 h hh]; exact Nat.zero_lt_two
  have hin : ∀ i, ∀ h ∈ Lock.api i :: H, rank h < rank .node := by
    intro i h hh
    rcases List.mem_cons.mp hh with rfl | hh
    · simp [rank]
    · exact hnode h hh
  have h3 : ∀ h ∈ Lock.node :: H, rank h < 3 := by
    intro h hh
    rcases List.mem_cons.mp hh with rfl | hh
    · simp [rank]
    · simp [h0 h hh]
  have h3i : ∀ i, ∀ h ∈ Lock.node :: Lock.api i :: H, rank h < 3 := by
    intro i h hh
    rcases List.mem_cons.mp hh with rfl | hh
    · simp [rank]
    · exact Nat.lt_succ_of_lt (hin i h hh)
  have hsimple : ∀ i, Body H (Locks.withLock (.api i) (Locks.withLock .node .work)) := fun i =>
    Body.withLock (by simp) (hapi i) (Body.withLock (by simp) (hin i) Body.work)
  cases c with
  | «local» i => exact Body.withLock (by simp) (hapi i) Body.work
  | simple i => exact hsimple i
  | start i ss n =>
    exact Body.withLock (by simp) (hapi i) (Body.withLock (by simp) (hin i) (Body.nodeStart (h3i i)))
  | stop i ss => exact Body.withLock (by simp) (hapi i) (Body.withLock (by simp) (hin i) (Body.nodeStop (h3i i)))
  | send i =>
    intro k hk
    exact Fine.tryLock (by simp) (Fine.unlock (hsimple i k hk)) hk
  | node => exact Body.withLock (by simp) hnode Body.work
  | nodeStart ss n => exact Body.withLock (by simp) hnode (Body.nodeStart h3)
  | nodeStop ss => exact Body.withLock (by simp) hnode (Body.nodeStop h3)
  | create i =>
    intro k hk
    exact Body.withLock (by simp) hnode Body.work _ (hsimple i k hk)

/-- A thread of the application that obeys the rules is ordered. -/
theorem appProg_fine : ∀ (is : List AppItem) (H : List Lock), WellUsed H is → Fine H (appProg is)
  | [], H, h => ⟨h, trivial⟩
  | .lock l :: is, H, h => by
    refine Fine.lock ?_ h.2.1 (appProg_fine is _ h.2.2)
    intro s hs; rw [hs] at h; exact h.1
  | .unlock l :: is, H, h => by
    have := appProg_fine is _ h.2
    exact ⟨⟨h.1, this.1⟩, this.2⟩
  | .call c :: is, H, h => c.body h.1 _ (appProg_fine is _ h.2)
  | .panic :: _, _, _ => Fine.panic

/-- A callback that obeys the rules may run inside any library mutex. -/
theorem SafeCallback.body {c : Callback} (hc : SafeCallback c) {H : List Lock} (hr : ∀ h ∈ H, rank h < 7) :
    Body H c := by
  induction hc with
  | nothing => exact fun _ hk => hk
  | panic => exact fun _ _ => Fine.panic
  | work _ ih => exact fun k hk => (ih k hk).work
  | critical x m _ ih =>
    intro k hk
    refine Fine.lock (by simp) hr ?_
    split
    · exact Fine.choice Fine.panic (Fine.unlock (ih k hk))
    · exact Fine.work (Fine.unlock (ih k hk))
  | choice _ _ ih ih' => exact fun k hk => Fine.choice (ih k hk) (ih' k hk)

theorem SafeObserver.body {o : Observer} (ho : SafeObserver o) {H : List Lock} (hr : ∀ h ∈ H, rank h < 6) :
    Body H o.body := by
  intro k hk
  cases o with
  | node calls =>
    refine Fine.tryLock (by simp) (Fine.choice Fine.panic (Body.seq ?_ _ (Fine.work (Fine.unlock hk)))) hk
    intro b hb
    simp only [List.mem_map] at hb
    obtain ⟨c, hc, rfl⟩ := hb
    have hn : ∀ h ∈ Lock.node :: H, rank h < 6 := by
      intro h hh
      rcases List.mem_cons.mp hh with rfl | hh
      · simp [rank]
      · exact hr h hh
    refine Body.withLock (by simp) hn ((ho c hc).body ?_)
    intro h hh
    rcases List.mem_cons.mp hh with rfl | hh
    · simp [rank]
    · have := hn h hh; omega
  | controller i => exact Fine.tryLock (by simp) (Fine.work (Fine.unlock hk)) hk
  | device => exact hk.work
  | user cb => exact SafeCallback.body ho (fun h hh => by have := hr h hh; omega) k hk

/-- Handling a datagram. -/
theorem messageProg_fine {s : Nat} {obs : List (Nat × Observer)} (ho : ∀ o ∈ obs, SafeObserver o.2) :
    Fine [.thread s] (messageProg s obs) := by
  have hidle : Fine [.thread s] (.idle s) := ⟨rfl, trivial⟩
  refine Fine.choice Fine.panic (Fine.choice hidle (Body.withLock (by simp) (by simp [rank]) (Body.seq ?_) _ hidle))
  intro b hb
  simp only [List.mem_map] at hb
  obtain ⟨o, hm, rfl⟩ := hb
  refine Body.withLock (by simp) (by simp [rank]) ((ho o hm).body (by simp [rank]))

theorem errorProg_fine {s : Nat} : Fine [.thread s] (errorProg s) := Fine.unlock ⟨rfl, trivial⟩

/-- The invariant is kept by the environment. -/
theorem env_inv {σ τ : State} (h : Inv' σ) (he : Env safeWorld σ τ) : Inv' τ := by
  have hset : ∀ {t : Thread} {p : Prog} {ρ : State}, (∀ t', ρ.prog t' = σ.prog t') → NoJoin p →
      ∀ t', Clear ((ρ.setProg t p).prog t') := by
    intro t p ρ hρ hp t'
    simp only [State.setProg]
    split
    · exact noJoin_clear hp
    · rw [hρ]; exact h.clear t'
  cases he with
  | @app i p hp hd =>
    obtain ⟨is, hw, rfl⟩ := hp
    have hf := appProg_fine is [] hw
    refine ⟨h.toInv.setProg ?_ (fun s k hk => absurd hk (noJoin_join hf.2 s k)), hset (fun _ => rfl) hf.2⟩
    intro H _ _ ho
    rw [hd] at ho
    rw [show H = [] from ho]; exact hf.1
  | @spawn s hd hfr _ _ =>
    refine ⟨h.toInv.acquire hfr ?_ (by simp) (by simp), hset (fun _ => rfl) trivial⟩
    intro H ho _
    rw [hd] at ho
    rw [show H = [] from ho]; rfl
  | @message s p hp hd =>
    have hf : Fine [.thread s] p := by
      rcases hp with ⟨obs, ho, rfl⟩ | rfl
      · exact messageProg_fine ho
      · exact errorProg_fine
    refine ⟨h.toInv.setProg ?_ (fun s k hk => absurd hk (noJoin_join hf.2 s k)), hset (fun _ => rfl) hf.2⟩
    intro H _ _ ho
    rw [hd] at ho
    rw [show H = [.thread s] from ho]; exact hf.1

theorem reaches_inv {σ : State} (h : Reaches safeWorld .init σ) : Inv' σ := by
  induction h with
  | refl => exact ⟨inv_init, fun _ => trivial⟩
  | step _ hs ih => exact step_inv ih hs
  | env _ he ih => exact env_inv ih he

/-! ## Progress -/

/-- A thread that is neither finished nor idle can step, or waits for a lock. -/
theorem can_step {σ : State} (h : Inv' σ) (t : Thread) :
    (∃ τ, Step σ τ) ∨ σ.prog t = .done ∨ (∃ s, σ.prog t = .idle s ∧ σ.flag s = false) ∨
    ∃ l t', σ.owner l = some t' ∧ ((∃ k, σ.prog t = .lock l k) ∨ ∃ s k, l = .thread s ∧ σ.prog t = .join s k) := by
  cases hp : σ.prog t with
  | done => exact .inr (.inl rfl)
  | lock l k =>
    cases ho : σ.owner l with
    | none =>
      cases hpo : σ.poisoned l with
      | false => exact .inl ⟨_, .lock hp ho hpo⟩
      | true => exact .inl ⟨_, .lockPoisoned hp ho hpo⟩
    | some t' => exact .inr (.inr (.inr ⟨l, t', ho, .inl ⟨k, rfl⟩⟩))
  | tryLock l s f =>
    by_cases ho : σ.owner l = none ∧ σ.poisoned l = false
    · exact .inl ⟨_, .tryOk hp ho.1 ho.2⟩
    · refine .inl ⟨_, .tryFail hp ?_⟩
      by_cases h1 : σ.owner l = none
      · right; cases h2 : σ.poisoned l with
        | false => exact absurd ⟨h1, h2⟩ ho
        | true => rfl
      · exact .inl h1
  | unlock l k =>
    obtain ⟨H, _, h2, ho⟩ := h.held t
    rw [hp] at ho
    exact .inl ⟨_, .unlock hp ((h2 l).mpr ho.1)⟩
  | stop s k => exact .inl ⟨_, .stop hp⟩
  | join s k =>
    cases ho : σ.owner (.thread s) with
    | none =>
      cases hc : σ.crashed (.recv s) with
      | false => exact .inl ⟨_, .join hp ho hc⟩
      | true => exact .inl ⟨_, .joinCrashed hp ho hc⟩
    | some t' => exact .inr (.inr (.inr ⟨_, t', ho, .inr ⟨s, k, rfl, rfl⟩⟩))
  | work k => exact .inl ⟨_, .work hp⟩
  | choice p q => exact .inl ⟨_, .choiceL hp⟩
  | panic => exact .inl ⟨_, .panic hp⟩
  | idle s =>
    cases hf : σ.flag s with
    | true =>
      obtain ⟨H, _, h2, ho⟩ := h.held t
      rw [hp] at ho
      exact .inl ⟨_, .exit hp ((h2 _).mpr (by rw [show H = [.thread s] from ho]; simp)) hf⟩
    | false => exact .inr (.inr (.inl ⟨s, rfl, hf⟩))

/-- Whoever waits for a lock, somebody can step. -/
theorem waiting_step {σ : State} (h : Inv' σ) : ∀ (n : Nat) (t : Thread) (l : Lock) (t' : Thread),
    8 - rank l ≤ n → σ.owner l = some t' →
    ((∃ k, σ.prog t = .lock l k) ∨ ∃ s k, l = .thread s ∧ σ.prog t = .join s k) → ∃ τ, Step σ τ := by
  intro n
  induction n with
  | zero =>
    intro t l t' hn
    cases l <;> simp [rank] at hn
  | succ n ih =>
    intro t l t' hn ho hw
    obtain ⟨H, _, h2, hord⟩ := h.held t'
    have hl : l ∈ H := (h2 l).mp ho
    rcases can_step h t' with hs | hd | ⟨s, hi, hf⟩ | ⟨l', t'', ho', hw'⟩
    · exact hs
    · rw [hd] at hord; rw [show H = [] from hord] at hl; simp at hl
    · rw [hi] at hord
      rw [show H = [.thread s] from hord, List.mem_singleton] at hl
      subst hl
      rcases hw with ⟨k, hk⟩ | ⟨s', k, hs', hk⟩
      · obtain ⟨H', _, _, hord'⟩ := h.held t
        rw [hk] at hord'
        exact absurd rfl (hord'.1 s)
      · simp only [Lock.thread.injEq] at hs'
        rw [hs', h.stopped t s' k hk] at hf
        simp at hf
    · refine ih t' l' t'' ?_ ho' hw'
      have hlt : rank l < rank l' := by
        rcases hw' with ⟨k, hk⟩ | ⟨s', k, rfl, hk⟩
        · rw [hk] at hord; exact hord.2.1 l hl
        · rw [hk] at hord; exact hord.1 l hl
      omega

/-- A state in which nothing can step is quiescent. -/
theorem stuck_quiescent {σ : State} (h : Inv' σ) (hno : ∀ τ, ¬ Step σ τ) : Quiescent σ := by
  have key : ∀ t, σ.prog t = .done ∨ ∃ s, σ.prog t = .idle s ∧ σ.flag s = false := by
    intro t
    rcases can_step h t with ⟨τ, hs⟩ | hd | hi | ⟨l, t', ho, hw⟩
    · exact absurd hs (hno τ)
    · exact .inl hd
    · exact .inr hi
    · obtain ⟨τ, hs⟩ := waiting_step h 8 t l t' (by omega) ho hw
      exact absurd hs (hno τ)
  have hidle : ∀ t s, σ.prog t = .idle s → t = .recv s := by
    intro t s hi
    obtain ⟨H, _, h2, hord⟩ := h.held t
    rw [hi] at hord
    refine h.threads s t ((h2 _).mpr ?_)
    rw [show H = [.thread s] from hord]; simp
  refine ⟨?_, ?_, ?_⟩
  · intro i
    rcases key (.app i) with hd | ⟨s, hi, _⟩
    · exact hd
    · exact absurd (hidle _ _ hi) (by simp)
  · intro s
    rcases key (.recv s) with hd | ⟨s', hi, hf⟩
    · exact .inl hd
    · have := hidle _ _ hi
      simp only [Thread.recv.injEq] at this
      subst this
      exact .inr ⟨hi, hf⟩
  · intro l hl
    cases ho : σ.owner l with
    | none => rfl
    | some t =>
      obtain ⟨H, _, h2, hord⟩ := h.held t
      have hm := (h2 l).mp ho
      rcases key t with hd | ⟨s, hi, _⟩
      · rw [hd] at hord; rw [show H = [] from hord] at hm; simp at hm
      · rw [hi] at hord
        rw [show H = [.thread s] from hord, List.mem_singleton] at hm
        exact absurd hm (hl s)

/-! ## Termination -/

/-- All threads outside `ts` have finished. -/
def Live (σ : State) (ts : List Thread) : Prop := ts.Nodup ∧ ∀ t, t ∉ ts → σ.prog t = .done

/-- Remaining work. -/
def remaining (σ : State) (ts : List Thread) : Nat := (ts.map (fun t => (σ.prog t).size)).sum

theorem remaining_lt {σ τ : State} {ts : List Thread} (hn : ts.Nodup) {t : Thread} (ht : t ∈ ts)
    (hlt : (τ.prog t).size < (σ.prog t).size) (hother : ∀ t', t' ≠ t → τ.prog t' = σ.prog t') :
    remaining τ ts < remaining σ ts := by
  induction ts with
  | nil => simp at ht
  | cons a ts ih =>
    have hsame : ∀ us : List Thread, t ∉ us → remaining τ us = remaining σ us := by
      intro us hus
      unfold remaining
      congr 1
      refine List.map_congr_left ?_
      intro u hu
      rw [hother u (fun he => hus (he ▸ hu))]
    have hc : ∀ ρ : State, remaining ρ (a :: ts) = (ρ.prog a).size + remaining ρ ts := by
      intro ρ; simp [remaining]
    rw [hc, hc]
    rcases List.mem_cons.mp ht with rfl | ht
    · rw [hsame ts (List.nodup_cons.mp hn).1]; omega
    · have hne : a ≠ t := fun he => (List.nodup_cons.mp hn).1 (he ▸ ht)
      rw [hother a hne]
      have := ih (List.nodup_cons.mp hn).2 ht
      omega

/-- A step belongs to one thread and makes its program smaller. -/
theorem step_shrinks {σ τ : State} (hs : Step σ τ) :
    ∃ t, (τ.prog t).size < (σ.prog t).size ∧ (∀ t', t' ≠ t → τ.prog t' = σ.prog t') := by
  have hset : ∀ (ρ : State) (t : Thread) (p : Prog), ρ.prog = σ.prog → p.size < (σ.prog t).size →
      ∃ t', (((ρ.setProg t p).prog t').size < (σ.prog t').size) ∧
        ∀ t'', t'' ≠ t' → (ρ.setProg t p).prog t'' = σ.prog t'' := by
    intro ρ t p hρ hp
    refine ⟨t, ?_, ?_⟩
    · simpa [State.setProg] using hp
    · intro t'' ht; simp [State.setProg, ht, hρ]
  have hcrash : ∀ t, 0 < (σ.prog t).size →
      ∃ t', (((σ.crash t).prog t').size < (σ.prog t').size) ∧
        ∀ t'', t'' ≠ t' → (σ.crash t).prog t'' = σ.prog t'' := by
    intro t hp
    refine ⟨t, ?_, ?_⟩
    · simpa [State.crash, Prog.size] using hp
    · intro t'' ht; simp [State.crash, ht]
  cases hs with
  | lock hp => exact hset _ _ _ rfl (by rw [hp]; simp [Prog.size])
  | lockPoisoned hp => exact hcrash _ (by rw [hp]; simp [Prog.size])
  | tryOk hp => exact hset _ _ _ rfl (by rw [hp]; simp only [Prog.size]; omega)
  | tryFail hp => exact hset _ _ _ rfl (by rw [hp]; simp only [Prog.size]; omega)
  | unlock hp => exact hset _ _ _ rfl (by rw [hp]; simp [Prog.size])
  | stop hp => exact hset _ _ _ rfl (by rw [hp]; simp [Prog.size])
  | join hp => exact hset _ _ _ rfl (by rw [hp]; simp [Prog.size])
  | joinCrashed hp => exact hcrash _ (by rw [hp]; simp [Prog.size])
  | work hp => exact hset _ _ _ rfl (by rw [hp]; simp [Prog.size])
  | choiceL hp => exact hset _ _ _ rfl (by rw [hp]; simp only [Prog.size]; omega)
  | choiceR hp => exact hset _ _ _ rfl (by rw [hp]; simp only [Prog.size]; omega)
  | panic hp => exact hcrash _ (by rw [hp]; simp [Prog.size])
  | exit hp => exact hset _ _ _ rfl (by rw [hp]; simp [Prog.size])

/-- A step keeps the finished threads finished. -/
theorem step_live {σ τ : State} {ts : List Thread} (hl : Live σ ts) (hs : Step σ τ) :
    Live τ ts ∧ remaining τ ts < remaining σ ts := by
  obtain ⟨t, hlt, ho⟩ := step_shrinks hs
  have ht : t ∈ ts := by
    by_cases ht : t ∈ ts
    · exact ht
    · rw [hl.2 t ht] at hlt; simp [Prog.size] at hlt
  refine ⟨⟨hl.1, fun t' ht' => ?_⟩, remaining_lt hl.1 ht hlt ho⟩
  rw [ho t' (fun he => ht' (he ▸ ht))]
  exact hl.2 t' ht'

theorem live_add {σ τ : State} {ts : List Thread} (hl : Live σ ts) (t : Thread)
    (ho : ∀ t', t' ≠ t → τ.prog t' = σ.prog t') : ∃ ts', Live τ ts' := by
  by_cases ht : t ∈ ts
  · exact ⟨ts, hl.1, fun t' ht' => by rw [ho t' (fun he => ht' (he ▸ ht))]; exact hl.2 t' ht'⟩
  · refine ⟨t :: ts, List.nodup_cons.mpr ⟨ht, hl.1⟩, fun t' ht' => ?_⟩
    simp only [List.mem_cons, not_or] at ht'
    rw [ho t' ht'.1]; exact hl.2 t' ht'.2

/-- In every reachable state only finitely many threads have not finished. -/
theorem reaches_live {W : World} {σ : State} (h : Reaches W .init σ) : ∃ ts, Live σ ts := by
  induction h with
  | refl => exact ⟨[], by simp, fun _ _ => rfl⟩
  | step _ hs ih =>
    obtain ⟨ts, hl⟩ := ih
    exact ⟨ts, (step_live hl hs).1⟩
  | env _ he ih =>
    obtain ⟨ts, hl⟩ := ih
    cases he with
    | @app i p => exact live_add hl (.app i) (fun t' ht' => by simp [State.setProg, ht'])
    | @spawn s => exact live_add hl (.recv s) (fun t' ht' => by simp [State.setProg, State.setOwner, ht'])
    | @message s p => exact live_add hl (.recv s) (fun t' ht' => by simp [State.setProg, ht'])

end Uecho.Locks
