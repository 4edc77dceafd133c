import Verif.Props.Servers
/-!
# Registering an observer waits for deliveries under way: C78
-/
namespace Uecho
open Spec
open Live

/-- The calls a server owes for the messages notified in `p` have been made in `tr`. -/
def Served (p tr : List Ev) (s : Nat) : Prop := owedCalls (notifiedOn s p) <+: callsOn s tr

theorem Served.more {p tr : List Ev} {s : Nat} (h : Served p tr s) (evs : List Ev) : Served p (tr ++ evs) s := by
  unfold Served
  rw [(on_append s tr evs).2.2]
  exact h.trans (List.prefix_append _ _)

/-- A server that is not in the middle of a delivery has nothing left to do. -/
theorem served_of_idle {p q : List Ev} {σ : St} (h : Runs (p ++ q) σ) (s : Nat)
    (hp : ∀ v, σ.srvs[s]? = some v → v.notifying = false ∧ v.pc ≠ .panicked) : Served p (p ++ q) s := by
  have hle : owedCalls (notifiedOn s p) <+: owedCalls (notifiedOn s (p ++ q)) := by
    rw [(on_append s p q).2.1, owedCalls_append]; exact List.prefix_append _ _
  suffices hg : callsOn s (p ++ q) = owedCalls (notifiedOn s (p ++ q)) by unfold Served; rw [hg]; exact hle
  obtain ⟨h1, h2⟩ := runs_hist h
  by_cases hlt : s < σ.srvs.length
  · have hv := List.getElem?_eq_getElem hlt
    have hi := h1 s _ hv
    obtain ⟨hn, hd⟩ := hp _ hv
    unfold ThreadInv at hi
    simp only [] at hi
    split at hi
    · exact hi.2
    · exact hi.2
    · exact hi.2
    · rename_i hpc; simp [Srv.notifying, hpc] at hn
    · exact hi.2
    · rename_i hpc; exact (hd hpc).elim
  · obtain ⟨a1, a2, a3⟩ := h2 s (by omega)
    rw [a2, a3]; rfl

def Panicked (σ : St) (s : Nat) : Prop := ∃ v, σ.srvs[s]? = some v ∧ v.pc = .panicked

def WaitInv (p tr : List Ev) (σ : St) (s : Nat) (o : ObserverRef) : Prop :=
  Served p tr s ∨ Panicked σ s ∨ σ.caller = none ∨ ∃ acts, σ.caller = some ⟨.addObserver o, acts⟩ ∧ .observe s o ∈ acts

theorem wait_step {p q evs : List Ev} {σ σ' : St} {w : Who} {s : Nat} {o : ObserverRef} (h : Runs (p ++ q) σ)
    (hs : Step σ w evs σ') (hi : ∀ op, Ev.invoked op ∉ evs) (inv : WaitInv p (p ++ q) σ s o) :
    WaitInv p (p ++ q ++ evs) σ' s o := by
  have hsh := runs_shape h
  rcases inv with h1 | ⟨v, hv, hp⟩ | h1 | ⟨acts, h1, h2⟩
  · exact Or.inl (h1.more evs)
  · obtain ⟨v', h3⟩ := panicked_stays hs s v hv hp
    exact Or.inr (Or.inl ⟨v', h3⟩)
  · cases hs with
    | thread t v v' _ hv hr => exact Or.inr (Or.inr (Or.inl h1))
    | invoke op hc => exact (hi op (by simp)).elim
    | caller op a as _ _ hcal hd => rw [h1] at hcal; cases hcal
  · cases hs with
    | thread t v v' _ hv hr => exact Or.inr (Or.inr (Or.inr ⟨acts, h1, h2⟩))
    | invoke op hc => exact (hi op (by simp)).elim
    | caller op a as _ _ hcal hd =>
      rw [h1] at hcal
      simp only [Option.some.injEq, Job.mk.injEq] at hcal
      obtain ⟨rfl, rfl⟩ := hcal
      by_cases ha : a = .observe s o
      · subst ha
        have key : ∀ v, σ.srvs[s]? = some v → v.notifying = false → WaitInv p (p ++ q ++ evs) σ' s o := by
          intro v hv hn
          by_cases hp : v.pc = .panicked
          · obtain ⟨v', h3⟩ := panicked_stays (Step.caller _ _ _ _ _ h1 hd) s v hv hp
            exact Or.inr (Or.inl ⟨v', h3⟩)
          · refine Or.inl (Served.more (served_of_idle h s ?_) evs)
            intro v' hv'
            rw [hv] at hv'; cases hv'
            exact ⟨hn, hp⟩
        cases hd with
        | observe _ _ v hv hn hp => exact key v hv hn
        | observeCrash _ _ v hv hn hp => exact key v hv hn
      · have hm : Act.observe s o ∈ as := by
          rcases List.mem_cons.mp h2 with h | h
          · exact (ha h.symm).elim
          · exact h
        obtain ⟨l, hl⟩ := hsh _ _ h1
        cases hd with
        | observe _ _ v hv hn hp => exact Or.inr (Or.inr (Or.inr ⟨as, rfl, hm⟩))
        | observeCrash _ _ v hv hn hp => exact Or.inr (Or.inr (Or.inl rfl))
        | ret r => exact Or.inr (Or.inr (Or.inl rfl))
        | _ => cases l <;> simp at hl

theorem wait_start {p : List Ev} {σ σ' : St} {s : Nat} {o : ObserverRef} (h : Runs p σ)
    (hs : Step σ .app [.invoked (.addObserver o)] σ') : WaitInv p (p ++ [.invoked (.addObserver o)]) σ' s o := by
  cases hs with
  | invoke op hc =>
    by_cases hl : LiveAt σ s
    · refine Or.inr (Or.inr (Or.inr ⟨_, rfl, ?_⟩))
      have := (runs_inv h).reg s hl
      simp only [St.actsOf, List.mem_append, List.mem_map, List.mem_append]
      exact Or.inl ⟨s, this, rfl⟩
    · by_cases hp : Panicked σ s
      · exact Or.inr (Or.inl hp)
      · refine Or.inl (Served.more ?_ _)
        have h' : Runs (p ++ []) σ := by rw [List.append_nil]; exact h
        have := served_of_idle h' s (fun v hv => ?_)
        · rwa [List.append_nil] at this
        · have hd : DeadSrv v := Classical.byContradiction (fun hd => hl ⟨v, hv, hd⟩)
          have hf : v.pc = .finished := by
            rcases hd with hd | hd
            · exact hd
            · exact (hp ⟨v, hv, hd⟩).elim
          simp [Srv.notifying, hf]

theorem waits {tr p q : List Ev} {σ : St} (h : Runs tr σ) (o : ObserverRef) (s : Nat)
    (htr : tr = p ++ .invoked (.addObserver o) :: q) (hq : ∀ op, Ev.invoked op ∉ q) :
    WaitInv p tr σ s o := by
  induction h generalizing q with
  | new => simp at htr
  | @step tr σ σ' w evs h hs ih =>
    rcases split_append htr with ⟨q₁, h1⟩ | ⟨q₁, q₂, h1, h2⟩
    · have hp : q = q₁ ++ evs := by
        rw [h1] at htr
        simp only [List.append_assoc, List.cons_append, List.append_cancel_left_eq, List.cons.injEq, true_and] at htr
        exact htr.symm
      subst hp
      have h' := ih h1 (fun op hx => hq op (by simp [hx]))
      subst h1
      exact wait_step h hs (fun op hx => hq op (by simp [hx])) h'
    · have hmem : Ev.invoked (.addObserver o) ∈ evs := by rw [h2]; simp
      cases hs with
      | thread t v v' _ hv hr => cases hr <;> simp at hmem
      | caller op a as _ _ hcal hd => cases hd <;> simp at hmem
      | invoke op hc =>
        simp only [List.mem_cons, List.not_mem_nil, or_false, Ev.invoked.injEq] at hmem
        subst hmem
        have hq' : q₁ = [] := by
          cases q₁ with
          | nil => rfl
          | cons _ q₁ => simp at h2
        subst hq'
        rw [List.append_nil] at h1
        subst h1
        exact wait_start h (.invoke _ hc)

/-- C78: registering an observer waits for deliveries under way: when a call of `add_observer` returns, every call owed to
the observers of server `s` for the messages notified before the call began has been made, unless the thread of `s` has
panicked. (So an observer is never added in the middle of a delivery.) -/
theorem C78_waits (tr p q : List Ev) (σ : St) (h : Runs tr σ) (o : ObserverRef) (r : Bool) (s : Nat)
    (htr : tr = p ++ .invoked (.addObserver o) :: q ++ [.returned (.addObserver o) r]) (hq : ∀ op, Ev.invoked op ∉ q) :
    (notifiedOn s p).flatMap (fun x => x.2.map (fun o => (o, x.1))) <+: callsOn s tr ∨
    ∃ v, σ.srvs[s]? = some v ∧ v.pc = .panicked := by
  suffices hg : Served p tr s ∨ Panicked σ s from hg
  induction h with
  | new => simp at htr
  | @step tr₀ σ₀ σ' w evs h hs ih =>
    have hone : evs = [] ∨ ∃ e, evs = [e] := by
      cases hs with
      | thread t v v' _ hv hr => cases hr <;> simp
      | caller op a as _ _ hcal hd => cases hd <;> simp
      | invoke op hc => simp
    rcases hone with rfl | ⟨e, rfl⟩
    · rw [List.append_nil] at htr ⊢
      rcases ih htr with h1 | ⟨v, hv, hp⟩
      · exact Or.inl h1
      · exact Or.inr (panicked_stays hs s v hv hp)
    · obtain ⟨h1, h2⟩ := List.append_inj' htr rfl
      simp only [List.cons.injEq, and_true] at h2
      subst h2
      have hw := waits h o s h1 hq
      rcases hw with h3 | ⟨v, hv, hp⟩ | h3 | ⟨acts, h3, h4⟩
      · exact Or.inl (h3.more _)
      · exact Or.inr (panicked_stays hs s v hv hp)
      · generalize hev : [Ev.returned (.addObserver o) r] = evs at hs
        cases hs with
        | thread t v v' _ hv hr => cases hr <;> simp at hev
        | invoke op hc => simp at hev
        | caller op a as _ _ hcal hd => rw [h3] at hcal; cases hcal
      · generalize hev : [Ev.returned (.addObserver o) r] = evs at hs
        cases hs with
        | thread t v v' _ hv hr => cases hr <;> simp at hev
        | invoke op hc => simp at hev
        | caller op a as _ _ hcal hd =>
          obtain ⟨l, hl⟩ := runs_shape h _ _ h3
          rw [h3] at hcal
          simp only [Option.some.injEq, Job.mk.injEq] at hcal
          obtain ⟨rfl, rfl⟩ := hcal
          cases hd <;> simp at hev
          cases l with
          | nil =>
            simp only [List.map_nil, List.nil_append, List.cons.injEq] at hl
            rw [hl.2] at h4; simp at h4
          | cons x l => simp at hl

/-- Non-vacuity: the unicast server is calling its observer when another one is being registered; the registration goes on
only after the call, and the hypotheses of `C78_waits` are met with one call owed. -/
theorem exWaits : ∃ m σ tr p, Runs tr σ ∧
    tr = p ++ .invoked (.addObserver (.user 8)) :: [.called 1 (.user 7) m] ++ [.returned (.addObserver (.user 8)) true] ∧
    notifiedOn 1 p = [(m, [.user 7])] ∧ callsOn 1 p = [] := by
  have h1 := Runs.step exUp (.thread 1 _ _ _ rfl (.wait rfl rfl))
  have h2 := Runs.step h1 (.thread 1 _ _ _ rfl (.got exDatagram rfl))
  have h3 := Runs.step h2 (.thread 1 _ _ _ rfl (.lock _ rfl rfl))
  have h4 := Runs.step h3 (.invoke (.addObserver (.user 8)) rfl)
  have h5 := Runs.step h4 (.thread 1 _ _ _ rfl (.call _ _ _ rfl))
  have h6 := Runs.step h5 (.thread 1 _ _ _ rfl (.next _ rfl))
  have h7 := Runs.step h6 (.caller _ _ _ _ _ rfl (.observe 1 (.user 8) _ rfl rfl rfl))
  have h8 := Runs.step h7 (.caller _ _ _ _ _ rfl (.observe 0 (.user 8) _ rfl rfl rfl))
  have h9 := Runs.step h8 (.caller _ _ _ _ _ rfl (.ret true))
  exact ⟨_, _, _, [.invoked (.start [exIf] [exIf]), .returned (.start [exIf] [exIf]) true,
     .invoked (.addObserver (.user 7)), .returned (.addObserver (.user 7)) true,
     .received 1 exDatagram, .notify 1 _ [.user 7]], h9, rfl, rfl, rfl⟩

end Uecho
