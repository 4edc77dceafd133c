import Verif.Spec.Timed
import Verif.Props.Servers
/-!
# How long the calls of a transport take: C96
-/
namespace Uecho
open Spec
open Live

theorem Live.TimedRuns.runs {L : Limits} {tr : List Ev} {τ : Timed} (h : TimedRuns L tr τ) : Runs tr τ.st := by
  induction h with
  | new _ _ => exact .new
  | step _ hs ih =>
    cases hs with
    | wait d ht hc => rw [List.append_nil]; exact ih
    | act _ σ' hs => exact ih.step hs

/-- Where a thread that did not move is afterwards. -/
theorem pc_same {σ σ' : St} {w : Who} {evs : List Ev} (hs : Step σ w evs σ') {s : Nat} {v' : Srv} (hw : w ≠ .thread s)
    (hlt : s < σ.srvs.length) (hv' : σ'.srvs[s]? = some v') :
    ∃ v, σ.srvs[s]? = some v ∧ v'.pc = v.pc ∧ (v.stop = true → v'.stop = true) := by
  have same : σ'.srvs = σ.srvs → ∃ v, σ.srvs[s]? = some v ∧ v'.pc = v.pc ∧ (v.stop = true → v'.stop = true) := by
    intro h; rw [h] at hv'; exact ⟨v', hv', rfl, id⟩
  have md : ∀ {t : Nat} (f : Srv → Srv), (∀ v, (f v).pc = v.pc) → (∀ v, v.stop = true → (f v).stop = true) →
      σ'.srvs = σ.srvs.modify t f → ∃ v, σ.srvs[s]? = some v ∧ v'.pc = v.pc ∧ (v.stop = true → v'.stop = true) := by
    intro t f hf hst h
    rw [h, List.getElem?_modify] at hv'
    obtain ⟨v, hv, rfl⟩ := Option.map_eq_some_iff.mp hv'
    refine ⟨v, hv, ?_, ?_⟩
    · split
      · exact hf v
      · rfl
    · split
      · exact hst v
      · exact id
  have app : ∀ ip, σ'.srvs = σ.srvs ++ [Srv.spawned ip] →
      ∃ v, σ.srvs[s]? = some v ∧ v'.pc = v.pc ∧ (v.stop = true → v'.stop = true) := by
    intro ip h
    rw [h, List.getElem?_append_left hlt] at hv'
    exact ⟨v', hv', rfl, id⟩
  cases hs with
  | thread t v u _ hv hr =>
    have hne : t ≠ s := fun h => hw (by rw [h])
    simp only [List.getElem?_set, if_neg hne] at hv'
    exact ⟨v', hv', rfl, id⟩
  | invoke op hc => exact same rfl
  | caller op a as _ _ hc hd =>
    cases hd with
    | spawnM e h => exact app e.addr rfl
    | spawnU e h => exact app e.addr rfl
    | flag t => exact md (t := t) (fun v => { v with stop := true }) (fun _ => rfl) (fun _ _ => rfl) rfl
    | joined t v hv hh hp => exact md (t := t) (fun v => { v with handle := false }) (fun _ => rfl) (fun _ h => h) rfl
    | joinCrash t v hv hh hp => exact md (t := t) (fun v => { v with handle := false }) (fun _ => rfl) (fun _ h => h) rfl
    | observe t o v hv hn hp =>
      exact md (t := t) (fun v => { v with observers := v.observers ++ [o] }) (fun _ => rfl) (fun _ h => h) rfl
    | _ => exact same rfl

/-- Nobody is late, and nobody has more time than its limit. -/
structure DueInv (L : Limits) (τ : Timed) : Prop where
  threads : ∀ (s : Nat) v, τ.st.srvs[s]? = some v → v.pc.over = false →
    τ.clock ≤ τ.dueT s ∧ τ.dueT s ≤ τ.clock + L.at v.pc
  caller : τ.st.ready = true → τ.clock ≤ τ.dueC ∧ τ.dueC ≤ τ.clock + L.caller τ.st

theorem DueInv.step {L : Limits} {τ τ' : Timed} {w : Who} {evs : List Ev} (inv : DueInv L τ) (hs : TimedStep L τ w evs τ') :
    DueInv L τ' := by
  cases hs with
  | wait d ht hc =>
    refine ⟨fun s v hv ho => ?_, fun hr => ?_⟩
    · have h1 := inv.threads s v hv ho
      exact ⟨ht s v hv ho, Nat.le_trans h1.2 (Nat.add_le_add_right (Nat.le_add_right _ _) _)⟩
    · have h1 := inv.caller hr
      exact ⟨hc hr, Nat.le_trans h1.2 (Nat.add_le_add_right (Nat.le_add_right _ _) _)⟩
  | act _ σ' hs =>
    refine ⟨fun s v hv ho => ?_, fun hr => ?_⟩
    · simp only [] at hv ⊢
      rw [hv]
      simp only []
      split
      · exact ⟨Nat.le_add_right _ _, Nat.le_refl _⟩
      · rename_i hn
        simp only [not_or, Nat.not_le] at hn
        obtain ⟨u, hu, hp, _⟩ := pc_same hs hn.1 hn.2 hv
        have := inv.threads s u hu (by rw [← hp]; exact ho)
        rw [hp]; exact this
    · simp only [] at hr ⊢
      split
      · rename_i hn
        simp only [Bool.and_eq_true] at hn
        have h1 := inv.caller hn.2
        refine ⟨h1.1, ?_⟩
        have : L.caller σ' = L.caller τ.st := by
          cases hs with
          | thread t v v' _ hv hr => rfl
          | caller op a as _ _ hcal hd => simp [Who.isThread] at hn
          | invoke op hc => simp [Who.isThread] at hn
        rw [this]; exact h1.2
      · exact ⟨Nat.le_add_right _ _, Nat.le_refl _⟩

theorem timed_due {L : Limits} {tr : List Ev} {τ : Timed} (h : TimedRuns L tr τ) : DueInv L τ := by
  induction h with
  | new _ _ => exact ⟨fun s v hv => by simp [St.new] at hv, fun hr => by simp [St.new, St.ready] at hr⟩
  | step _ hs ih => exact ih.step hs

/-! ## The rest of the time -/

/-- What a thread that has been told to stop may need after its next step. -/
def afterNext (L : Limits) (v : Srv) : Nat :=
  match v.pc with
  | .recv => 3 * L.step + v.observers.length * L.call
  | .handing _ => 2 * L.step + v.observers.length * L.call
  | .calling _ (_ :: os) => 2 * L.step + os.length * L.call
  | .calling _ [] => L.step
  | _ => 0

theorem recv_after {L : Limits} {s : Nat} {v v' : Srv} {evs : List Ev} (h : Recv s v evs v') (hst : v.stop = true)
    (ho : v'.pc.over = false) : L.at v'.pc + afterNext L v' ≤ afterNext L v := by
  cases h with
  | exit hp hf => simp [Pc.over] at ho
  | wait hp hf => rw [hst] at hf; simp at hf
  | got e hp =>
    revert ho
    unfold Srv.received
    split <;> simp [Pc.over, afterNext, hp, Limits.at] <;> omega
  | lock m hp hl =>
    cases hobs : v.observers with
    | nil => simp [afterNext, hp, hobs, Limits.at]; omega
    | cons o os => simp [afterNext, hp, hobs, Limits.at, Nat.succ_mul]; omega
  | lockPoisoned m hp hl => simp [Pc.over] at ho
  | call m o os hp =>
    cases os with
    | nil => simp [afterNext, hp, Limits.at]; omega
    | cons o' os => simp [afterNext, hp, Limits.at, Nat.succ_mul]; omega
  | die m o os hp => simp [Pc.over] at ho
  | next m hp => simp [afterNext, hp, Limits.at]

theorem at_after {L : Limits} {v : Srv} (ht : ∀ m l, v.pc = .calling m l → l.length ≤ v.observers.length) :
    L.at v.pc + afterNext L v ≤ L.recv + v.observers.length * L.call + 3 * L.step := by
  unfold afterNext
  split <;> rename_i hp
  · simp [Limits.at, hp]; omega
  · simp [Limits.at, hp]; omega
  · rename_i os
    have := Nat.mul_le_mul_right L.call (ht _ _ hp)
    simp only [List.length_cons, Nat.succ_mul] at this
    simp [Limits.at, hp]; omega
  · simp [Limits.at, hp]; omega
  · have : L.at v.pc ≤ L.step ∨ L.at v.pc ≤ L.recv := by
      unfold Limits.at
      split
      · exact Or.inr (Nat.le_refl _)
      · rename_i h; rename_i h2 _ _ _; exact Or.inl (by simp_all)
      · exact Or.inl (Nat.le_refl _)
    omega

/-- The time for a step of a call; for the creation of a server, with the time to stop it again. -/
def timeOf (L : Limits) (σ : St) : Act → Nat
  | .join s => L.recv + obsCount σ s * L.call + 4 * L.step
  | .spawnM _ => L.bind + (L.recv + 5 * L.step)
  | .spawnU _ => L.bind + (L.recv + 5 * L.step)
  | _ => L.step

def extra (L : Limits) : Act → Nat
  | .spawnM _ => L.recv + 5 * L.step
  | .spawnU _ => L.recv + 5 * L.step
  | _ => 0

def timesOf (L : Limits) (σ : St) (acts : List Act) : Nat := (acts.map (timeOf L σ)).sum

def checks : Act → Bool
  | .readyM => true
  | .readyU => true
  | _ => false

/-- The time for stopping all servers, if `start` may still fail. -/
def reserve (L : Limits) (σ : St) (acts : List Act) : Nat :=
  if acts.any checks then ((σ.ucast ++ σ.mcast).map (stopTime L σ)).sum + 3 * L.step else 0

/-- Until when the caller has taken its next step. -/
def headDue (L : Limits) (τ : Timed) (a : Act) : Nat :=
  if τ.st.ready then τ.dueC
  else match a with
    | .join s => match τ.st.srvs[s]? with
      | some v => τ.dueT s + afterNext L v + L.step
      | none => τ.dueC
    | _ => τ.dueC

/-- Until when the call has ended. -/
def finish (L : Limits) (τ : Timed) (a : Act) (as : List Act) : Nat :=
  headDue L τ a + extra L a + timesOf L τ.st as + reserve L τ.st (a :: as)

theorem stopActs_time (L : Limits) (σ : St) (r : Bool) :
    timesOf L σ (σ.stopActs r) = ((σ.ucast ++ σ.mcast).map (stopTime L σ)).sum + 3 * L.step := by
  have hsum : ∀ l : List Nat, ((l.flatMap (fun s => [Act.flag s, Act.join s])).map (timeOf L σ)).sum =
      (l.map (stopTime L σ)).sum := by
    intro l
    induction l with
    | nil => rfl
    | cons s l ih => simp [timeOf, ih, stopTime]; omega
  simp only [St.stopActs, timesOf, List.map_append, List.sum_append, hsum, List.map_cons, List.map_nil,
    List.sum_cons, List.sum_nil, timeOf]
  omega

theorem stopActs_reserve (L : Limits) (σ σ' : St) (r : Bool) : reserve L σ' (σ.stopActs r) = 0 := by
  unfold reserve
  rw [if_neg]
  simp [St.stopActs, checks]

theorem timeOf_eq {L : Limits} {σ σ' : St} (h : ∀ s, obsCount σ' s = obsCount σ s) : timeOf L σ' = timeOf L σ := by
  funext a; cases a <;> simp only [timeOf, h]

theorem stopTime_eq {L : Limits} {σ σ' : St} (h : ∀ s, obsCount σ' s = obsCount σ s) : stopTime L σ' = stopTime L σ := by
  funext s; simp only [stopTime, h]

theorem two_last (l : List Act) (a : Act) (r : Bool) : ∃ l' r', l ++ [a, .ret r] = l' ++ [.ret r'] :=
  ⟨l ++ [a], r, by simp⟩

theorem stopActs_ret (σ : St) (r : Bool) : ∃ l' r', σ.stopActs r = l' ++ [.ret r'] := two_last _ _ _

/-- The last step of a call is to return. -/
theorem runs_ret {tr : List Ev} {σ : St} (h : Runs tr σ) : ∀ op acts, σ.caller = some ⟨op, acts⟩ →
    ∃ l r, acts = l ++ [.ret r] := by
  induction h with
  | new => intro op acts hc; simp [St.new] at hc
  | @step tr σ σ' w evs h hs ih =>
    intro op acts hc
    cases hs with
    | thread t v v' _ hv hr => exact ih op acts hc
    | invoke op' hc' =>
      simp only [Option.some.injEq, Job.mk.injEq] at hc
      obtain ⟨rfl, rfl⟩ := hc
      cases op' with
      | stop => exact stopActs_ret σ true
      | addObserver o => exact ⟨_, true, rfl⟩
      | start menv uenv =>
        simp only [St.actsOf]
        split
        · exact ⟨[], true, rfl⟩
        · exact two_last _ _ _
    | caller op' a as _ _ hcal hd =>
      obtain ⟨l, r, hl⟩ := ih _ _ hcal
      have key : (some (Job.mk op' as) = some ⟨op, acts⟩) → (∀ r, a ≠ .ret r) → ∃ l r, acts = l ++ [.ret r] := by
        intro h1 h2
        simp only [Option.some.injEq, Job.mk.injEq] at h1
        obtain ⟨rfl, rfl⟩ := h1
        cases l with
        | nil => simp only [List.nil_append, List.cons.injEq] at hl; exact (h2 r hl.1).elim
        | cons x l => simp only [List.cons_append, List.cons.injEq] at hl; exact ⟨l, r, hl.2⟩
      have fl : (some (Job.mk op' (σ.stopActs false)) = some ⟨op, acts⟩) → ∃ l r, acts = l ++ [.ret r] := by
        intro h1
        simp only [Option.some.injEq, Job.mk.injEq] at h1
        obtain ⟨rfl, rfl⟩ := h1
        exact stopActs_ret σ false
      cases hd with
      | failM h => exact fl hc
      | failU h => exact fl hc
      | ret r => simp at hc
      | crashM e h => simp at hc
      | joinCrash s v hv hh hp => simp at hc
      | observeCrash s o v hv hn hp => simp at hc
      | _ => exact key hc (fun _ => by simp)

theorem do_ready {σ σ' : St} {op : MOp} {a : Act} {as : List Act} {evs : List Ev} (hc : σ.caller = some ⟨op, a :: as⟩)
    (hd : Do σ op as a evs σ') : σ.ready = true := by
  cases hd with
  | joined s v hv hh hp => simp [St.ready, hc, hv, hp, Pc.over]
  | joinCrash s v hv hh hp => simp [St.ready, hc, hv, hp, Pc.over]
  | noHandle s v hv hh => simp [St.ready, hc, hv, hh]
  | observe s o v hv hn hp => simp [St.ready, hc, hv, hn]
  | observeCrash s o v hv hn hp => simp [St.ready, hc, hv, hn]
  | _ => simp [St.ready, hc]

/-- Only a caller that waits for a thread cannot go on. -/
theorem not_ready {σ : St} {op : MOp} {a : Act} {as : List Act} (hc : σ.caller = some ⟨op, a :: as⟩)
    (hob : ∀ s o, a ≠ .observe s o) (hr : σ.ready = false) :
    ∃ s v, a = .join s ∧ σ.srvs[s]? = some v ∧ v.pc.over = false ∧ v.handle = true := by
  cases a with
  | join s =>
    simp only [St.ready, hc] at hr
    cases hv : σ.srvs[s]? with
    | none => simp [hv] at hr
    | some v =>
      simp only [hv, Bool.or_eq_false_iff, Bool.not_eq_false'] at hr
      exact ⟨s, v, rfl, hv, hr.2, hr.1⟩
  | observe s o => exact (hob s o rfl).elim
  | _ => simp [St.ready, hc] at hr

theorem finish_bounds {L : Limits} {τ : Timed} {op : MOp} {a : Act} {as : List Act} (due : DueInv L τ) (inv : TodoInv τ.st)
    (hc : τ.st.caller = some ⟨op, a :: as⟩) (hob : ∀ s o, a ≠ .observe s o) :
    τ.clock ≤ finish L τ a as ∧ finish L τ a as ≤ τ.clock + timesOf L τ.st (a :: as) + reserve L τ.st (a :: as) := by
  suffices h : τ.clock ≤ headDue L τ a ∧ headDue L τ a + extra L a ≤ τ.clock + timeOf L τ.st a by
    unfold finish
    simp only [timesOf, List.map_cons, List.sum_cons] at *
    omega
  by_cases hr : τ.st.ready = true
  · have h1 := due.caller hr
    simp only [headDue, hr, if_true]
    refine ⟨h1.1, ?_⟩
    have h2 : L.caller τ.st + extra L a ≤ timeOf L τ.st a := by
      simp only [Limits.caller, hc]
      cases a <;> simp [Limits.act, extra, timeOf] <;> omega
    omega
  · obtain ⟨s, v, rfl, hv, ho, hh⟩ := not_ready hc hob (by simpa using hr)
    have h1 := due.threads s v hv ho
    have h2 := at_after (L := L) (v := v) (fun m l hp => inv.todo s v m l hv hp)
    have h3 : obsCount τ.st s = v.observers.length := by simp [obsCount, hv]
    simp only [headDue, hr, hv, extra, timeOf, h3]
    refine ⟨by simp; omega, by simp; omega⟩

theorem obsCount_spawn {σ σ' : St} (ip : IpAddr) (h : σ'.srvs = σ.srvs ++ [Srv.spawned ip]) (s : Nat) :
    obsCount σ' s = obsCount σ s := by
  unfold obsCount
  rw [h, List.getElem?_append]
  split
  · rfl
  · rename_i hlt
    rw [List.getElem?_eq_none (by omega : σ.srvs.length ≤ s)]
    cases hk : s - σ.srvs.length with
    | zero => simp [Srv.spawned]
    | succ k => simp

theorem any_tail {as : List Act} {a : Act} : as.any checks = true → (a :: as).any checks = true := by
  intro h; simp [h]

/-- The steps of the caller do not take longer than planned. -/
theorem do_time {L : Limits} {σ σ' : St} {op : MOp} {a : Act} {as acts' : List Act} {evs : List Ev} (hd : Do σ op as a evs σ')
    (hob : ∀ s o, a ≠ .observe s o) (hc' : σ'.caller = some ⟨op, acts'⟩) :
    timesOf L σ' acts' + reserve L σ' acts' ≤ extra L a + timesOf L σ as + reserve L σ (a :: as) := by
  have go : σ'.caller = some ⟨op, as⟩ → (∀ s, obsCount σ' s = obsCount σ s) →
      (σ'.ucast.length = 0 ∨ σ'.ucast = σ.ucast) → (σ'.mcast.length = 0 ∨ σ'.mcast = σ.mcast) →
      timesOf L σ' acts' + reserve L σ' acts' ≤ extra L a + timesOf L σ as + reserve L σ (a :: as) := by
    intro h1 h2 h3 h4
    rw [h1] at hc'
    simp only [Option.some.injEq, Job.mk.injEq, true_and] at hc'
    subst hc'
    have e1 : timesOf L σ' as = timesOf L σ as := by unfold timesOf; rw [timeOf_eq h2]
    have e2 : reserve L σ' as ≤ reserve L σ (a :: as) := by
      unfold reserve
      rw [stopTime_eq h2]
      split
      · rename_i hh
        rw [if_pos (any_tail hh)]
        simp only [List.map_append, List.sum_append]
        rcases h3 with h3 | h3 <;> rcases h4 with h4 | h4 <;>
          simp [h3, h4, List.length_eq_zero_iff.mp] <;> simp_all <;> omega
      · exact Nat.zero_le _
    omega
  have sp : σ'.caller = some ⟨op, as⟩ → (∀ s, obsCount σ' s = obsCount σ s) → (∃ e, a = .spawnM e ∨ a = .spawnU e) →
      (σ'.ucast ++ σ'.mcast).Perm (σ.srvs.length :: (σ.ucast ++ σ.mcast)) →
      timesOf L σ' acts' + reserve L σ' acts' ≤ extra L a + timesOf L σ as + reserve L σ (a :: as) := by
    intro h1 h2 h3 h4
    rw [h1] at hc'
    simp only [Option.some.injEq, Job.mk.injEq, true_and] at hc'
    subst hc'
    have e1 : timesOf L σ' as = timesOf L σ as := by unfold timesOf; rw [timeOf_eq h2]
    have e3 : extra L a = L.recv + 5 * L.step := by obtain ⟨e, rfl | rfl⟩ := h3 <;> rfl
    have e4 : stopTime L σ σ.srvs.length = L.recv + 5 * L.step := by simp [stopTime, obsCount]
    have e2 : reserve L σ' as ≤ (L.recv + 5 * L.step) + reserve L σ (a :: as) := by
      unfold reserve
      rw [stopTime_eq h2]
      split
      · rename_i hh
        rw [if_pos (any_tail hh), (h4.map _).sum_nat]
        simp only [List.map_cons, List.sum_cons, e4]
        omega
      · exact Nat.zero_le _
    omega
  have fl : σ'.caller = some ⟨op, σ.stopActs false⟩ → σ'.srvs = σ.srvs → checks a = true →
      timesOf L σ' acts' + reserve L σ' acts' ≤ extra L a + timesOf L σ as + reserve L σ (a :: as) := by
    intro h1 h2 h3
    rw [h1] at hc'
    simp only [Option.some.injEq, Job.mk.injEq, true_and] at hc'
    subst hc'
    rw [stopActs_reserve]
    have e1 : timesOf L σ' (σ.stopActs false) = timesOf L σ (σ.stopActs false) := by
      unfold timesOf; rw [timeOf_eq (σ := σ) (σ' := σ') (fun s => by simp [obsCount, h2])]
    rw [e1, stopActs_time]
    have e2 : reserve L σ (a :: as) = ((σ.ucast ++ σ.mcast).map (stopTime L σ)).sum + 3 * L.step := by
      unfold reserve; rw [if_pos (by simp [h3])]
    omega
  cases hd with
  | spawnM e h => exact sp rfl (obsCount_spawn e.addr rfl) ⟨e, Or.inl rfl⟩ (by
      show (σ.ucast ++ (σ.mcast ++ [σ.srvs.length])).Perm _
      rw [← List.append_assoc]; exact List.perm_append_singleton _ _)
  | spawnU e h => exact sp rfl (obsCount_spawn e.addr rfl) ⟨e, Or.inr rfl⟩ (by
      show ((σ.ucast ++ [σ.srvs.length]) ++ σ.mcast).Perm _
      rw [List.append_assoc]; exact List.perm_middle)
  | failM h => exact fl rfl rfl rfl
  | failU h => exact fl rfl rfl rfl
  | flag s => exact go rfl (obsCount_modify (t := s) (fun v => { v with stop := true }) (fun _ => rfl) rfl) (Or.inr rfl) (Or.inr rfl)
  | joined s v hv hh hp =>
    exact go rfl (obsCount_modify (t := s) (fun v => { v with handle := false }) (fun _ => rfl) rfl) (Or.inr rfl) (Or.inr rfl)
  | clearU => exact go rfl (fun _ => rfl) (Or.inl rfl) (Or.inr rfl)
  | clearM => exact go rfl (fun _ => rfl) (Or.inr rfl) (Or.inl rfl)
  | noHandle s v hv hh => exact go rfl (fun _ => rfl) (Or.inr rfl) (Or.inr rfl)
  | skipM e h => exact go rfl (fun _ => rfl) (Or.inr rfl) (Or.inr rfl)
  | skipU e h => exact go rfl (fun _ => rfl) (Or.inr rfl) (Or.inr rfl)
  | readyM h => exact go rfl (fun _ => rfl) (Or.inr rfl) (Or.inr rfl)
  | readyU h => exact go rfl (fun _ => rfl) (Or.inr rfl) (Or.inr rfl)
  | observe s o v hv hn hp => exact (hob s o rfl).elim
  | observeCrash s o v hv hn hp => exact (hob s o rfl).elim
  | crashM e h => simp at hc'
  | joinCrash s v hv hh hp => simp at hc'
  | ret r => simp at hc'

/-- The heads of the calls other than `add_observer`. -/
theorem no_observe {σ : St} {op : MOp} {a : Act} {as : List Act} (sinv : StInv σ) (hc : σ.caller = some ⟨op, a :: as⟩)
    (hop : ∀ o, op ≠ .addObserver o) : ∀ s o, a ≠ .observe s o := by
  intro s o ha
  subst ha
  cases sinv.job _ _ hc with
  | starting ho h => simpa using h _ List.mem_cons_self
  | stopping h _ => simpa using h.head
  | observing o' ho h => exact hop o' ho

theorem call_time_step {L : Limits} {τ τ' : Timed} {w : Who} {evs : List Ev} {op : MOp} {a : Act} {as : List Act}
    (sinv : StInv τ.st) (inv : TodoInv τ.st) (inv' : TodoInv τ'.st) (sinv' : StInv τ'.st) (due : DueInv L τ)
    (hs : TimedStep L τ w evs τ') (hc : τ.st.caller = some ⟨op, a :: as⟩)
    (hop : ∀ o, op ≠ .addObserver o) (hn : τ'.st.caller ≠ none)
    (hne : ∀ op acts, τ'.st.caller = some ⟨op, acts⟩ → acts ≠ []) :
    ∃ a' as', τ'.st.caller = some ⟨op, a' :: as'⟩ ∧ finish L τ' a' as' ≤ finish L τ a as := by
  have due' := due.step hs
  have hob := no_observe sinv hc hop
  cases hs with
  | wait d ht hcl => exact ⟨a, as, hc, Nat.le_refl _⟩
  | act _ σ' hs =>
    cases hs with
    | invoke op' hc' => rw [hc] at hc'; simp at hc'
    | thread t v v' _ hv hr =>
      refine ⟨a, as, hc, ?_⟩
      have hlt : t < τ.st.srvs.length := (List.getElem?_eq_some_iff.mp hv).1
      have hobs := obsCount_set (σ' := { τ.st with srvs := τ.st.srvs.set t v' }) hv (recv_stop hr).2 rfl
      unfold finish
      have e1 : timesOf L { τ.st with srvs := τ.st.srvs.set t v' } as = timesOf L τ.st as := by
        unfold timesOf; rw [timeOf_eq hobs]
      have e2 : reserve L { τ.st with srvs := τ.st.srvs.set t v' } (a :: as) = reserve L τ.st (a :: as) := by
        unfold reserve; rw [stopTime_eq hobs]
      simp only [e1, e2]
      refine Nat.add_le_add_right (Nat.add_le_add_right (Nat.add_le_add_right ?_ _) _) _
      have hlive : v.pc.over = false := by
        have := (recv_dead hr).1
        unfold DeadSrv at this
        cases hp : v.pc <;> simp [hp] at this <;> rfl
      by_cases hrd : τ.st.ready = true
      · have hsame : St.ready { τ.st with srvs := τ.st.srvs.set t v' } = true := by
          cases a with
          | join s =>
            have hts : t ≠ s := by
              intro e; subst e
              simp only [St.ready, hc, hv, hlive, Bool.or_false, Bool.not_eq_true'] at hrd
              exact (recv_dead hr).1 (sinv.hand t v hv hrd)
            simp only [St.ready, hc, List.getElem?_set, if_neg hts] at hrd ⊢
            exact hrd
          | observe s o => exact (hob s o rfl).elim
          | _ => simp [St.ready, hc]
        simp only [headDue, hsame, hrd, if_true, Who.isThread, Bool.and_self]
        exact Nat.le_refl _
      · have hrf : τ.st.ready = false := by simpa using hrd
        obtain ⟨s, u, rfl, hu, ho, hh⟩ := not_ready hc hob hrf
        simp only [headDue, hrf, Bool.false_eq_true, if_false, hu, Bool.and_false]
        by_cases hts : t = s
        · subst hts
          rw [hv] at hu; cases hu
          have hst : v.stop = true := by
            rcases inv.flagged _ _ [] as t hc rfl with h | h
            · simp at h
            · exact h v hv
          have hd := due.threads t v hv hlive
          have hget : (τ.st.srvs.set t v')[t]? = some v' := by simp [hlt]
          by_cases hov : v'.pc.over = true
          · have : St.ready { τ.st with srvs := τ.st.srvs.set t v' } = true := by
              simp only [St.ready, hc, hget, hov, Bool.or_true]
            simp only [this, if_true]
            simp only [Limits.caller, hc, Limits.act]
            omega
          · have hov' : v'.pc.over = false := by simpa using hov
            have : St.ready { τ.st with srvs := τ.st.srvs.set t v' } = false := by
              simp only [St.ready, hc, hget, hov', Bool.or_false, (recv_dead hr).2, hh, Bool.not_true]
            simp only [this, Bool.false_eq_true, if_false, hget, true_or, if_true]
            have := recv_after (L := L) hr hst hov'
            omega
        · have hget : (τ.st.srvs.set t v')[s]? = some u := by rw [List.getElem?_set, if_neg hts]; exact hu
          have : St.ready { τ.st with srvs := τ.st.srvs.set t v' } = false := by
            simp only [St.ready, hc, hget, ho, hh, Bool.not_true, Bool.or_false]
          have hsl : s < τ.st.srvs.length := (List.getElem?_eq_some_iff.mp hu).1
          simp only [this, Bool.false_eq_true, if_false, hget]
          rw [if_neg (by simp [hts]; omega)]
          exact Nat.le_refl _
    | caller op' b bs _ _ hcal hd =>
      rw [hc] at hcal
      simp only [Option.some.injEq, Job.mk.injEq, List.cons.injEq] at hcal
      obtain ⟨rfl, rfl, rfl⟩ := hcal
      have hrd := do_ready hc hd
      obtain ⟨acts', hc'⟩ : ∃ acts', σ'.caller = some ⟨op, acts'⟩ := by
        cases hd <;> first | exact ⟨_, rfl⟩ | exact (hn rfl).elim
      cases acts' with
      | nil => exact (hne _ _ hc' rfl).elim
      | cons a' as' =>
        refine ⟨a', as', hc', ?_⟩
        have h1 := (finish_bounds due' inv' hc' (no_observe sinv' hc' hop)).2
        have h2 := do_time (L := L) hd hob hc'
        have h3 := (due.caller hrd).1
        have h4 : headDue L τ a = τ.dueC := by simp [headDue, hrd]
        have h5 : finish L τ a as = τ.dueC + extra L a + timesOf L τ.st as + reserve L τ.st (a :: as) := by
          unfold finish; rw [h4]
        rw [h5]
        refine Nat.le_trans h1 ?_
        show τ.clock + timesOf L σ' (a' :: as') + reserve L σ' (a' :: as') ≤ _
        omega

theorem under_finish {L : Limits} {tr : List Ev} {τ τ' : Timed} (hu : Under L τ τ') (h : TimedRuns L tr τ) {op : MOp} {a : Act}
    {as : List Act} (hc : τ.st.caller = some ⟨op, a :: as⟩) (hop : ∀ o, op ≠ .addObserver o) :
    (∃ tr', TimedRuns L tr' τ') ∧ ∃ a' as', τ'.st.caller = some ⟨op, a' :: as'⟩ ∧ finish L τ' a' as' ≤ finish L τ a as := by
  induction hu with
  | refl => exact ⟨⟨tr, h⟩, a, as, hc, Nat.le_refl _⟩
  | step _ hs hn ih =>
    obtain ⟨⟨tr', h'⟩, a', as', hc', hle⟩ := ih
    have hr := TimedRuns.step h' hs
    obtain ⟨a'', as'', hc'', hle'⟩ := call_time_step (runs_inv h'.runs) (runs_todo h'.runs) (runs_todo hr.runs)
      (runs_inv hr.runs) (timed_due h') hs hc' hop hn (fun op acts he => by
        obtain ⟨l, r, hl⟩ := runs_ret hr.runs _ _ he
        rw [hl]; simp)
    exact ⟨⟨_, hr⟩, a'', as'', hc'', Nat.le_trans hle' hle⟩

/-- What is planned for a call. -/
theorem call_plan (L : Limits) (σ : St) (op : MOp) (hop : ∀ o, op ≠ .addObserver o) :
    timesOf L σ (σ.actsOf op) + reserve L σ (σ.actsOf op) ≤ callTime L σ op := by
  have e2 : reserve L σ (σ.actsOf op) ≤ ((σ.ucast ++ σ.mcast).map (stopTime L σ)).sum + 3 * L.step := by
    unfold reserve
    split
    · exact Nat.le_refl _
    · exact Nat.zero_le _
  cases op with
  | addObserver o => exact (hop o rfl).elim
  | stop =>
    have e3 : reserve L σ (σ.actsOf .stop) = 0 := stopActs_reserve L σ _ true
    rw [e3]
    show timesOf L σ (σ.stopActs true) + 0 ≤ _
    rw [stopActs_time]
    exact Nat.le_refl _
  | start menv uenv =>
    have hM : ∀ l : List IfOutcome, ((l.map Act.spawnM).map (timeOf L σ)).sum = l.length * (L.bind + L.recv + 5 * L.step) := by
      intro l
      induction l with
      | nil => simp
      | cons e l ih => simp only [List.map_cons, List.sum_cons, ih, timeOf, List.length_cons, Nat.succ_mul]; omega
    have hU : ∀ l : List IfOutcome, ((l.map Act.spawnU).map (timeOf L σ)).sum = l.length * (L.bind + L.recv + 5 * L.step) := by
      intro l
      induction l with
      | nil => simp
      | cons e l ih => simp only [List.map_cons, List.sum_cons, ih, timeOf, List.length_cons, Nat.succ_mul]; omega
    have e3 : timesOf L σ (σ.actsOf (.start menv uenv)) ≤
        (menv.length + uenv.length) * (L.bind + L.recv + 5 * L.step) + 3 * L.step := by
      have a1 : ((if σ.mcast.isEmpty then menv.map Act.spawnM else []).map (timeOf L σ)).sum ≤
          menv.length * (L.bind + L.recv + 5 * L.step) := by
        split
        · rw [hM]; exact Nat.le_refl _
        · exact Nat.zero_le _
      have a2 : ((if σ.ucast.isEmpty then uenv.map Act.spawnU else []).map (timeOf L σ)).sum ≤
          uenv.length * (L.bind + L.recv + 5 * L.step) := by
        split
        · rw [hU]; exact Nat.le_refl _
        · exact Nat.zero_le _
      rw [Nat.add_mul]
      generalize menv.length * (L.bind + L.recv + 5 * L.step) = x at a1 ⊢
      generalize uenv.length * (L.bind + L.recv + 5 * L.step) = y at a2 ⊢
      simp only [St.actsOf]
      split
      · simp only [timesOf, List.map_cons, List.map_nil, List.sum_cons, List.sum_nil, timeOf]; omega
      · simp only [timesOf, List.map_append, List.sum_append, List.map_cons, List.map_nil, List.sum_cons,
          List.sum_nil, timeOf] at *
        omega
    simp only [callTime]
    omega

/-- C96: `start` and `stop` end in time: whatever the receiver threads do and receive, as long as the call goes on the clock
shows at most the time of the call plus the bound for it: per server one read timeout, one call of each of its observers and
five other steps to stop it, and for `start` the time to bind. -/
theorem C96_in_time (L : Limits) (tr : List Ev) (τ τ₁ τ' : Timed) (op : MOp) (h : TimedRuns L tr τ)
    (hi : TimedStep L τ .app [.invoked op] τ₁) (hu : Under L τ₁ τ') (hop : ∀ o, op ≠ .addObserver o) :
    τ'.clock ≤ τ.clock + callTime L τ.st op := by
  have hr := TimedRuns.step h hi
  generalize hw : Who.app = w at hi
  generalize hev : [Ev.invoked op] = evs at hi
  cases hi with
  | wait d ht hc => simp at hev
  | act _ σ' hs =>
    subst hw
    cases hs with
    | invoke op' hc' =>
      simp only [List.cons.injEq, Ev.invoked.injEq, and_true] at hev
      subst hev
      obtain ⟨l, r, hl⟩ := runs_ret hr.runs op (τ.st.actsOf op) rfl
      cases hacts : τ.st.actsOf op with
      | nil => rw [hacts] at hl; simp at hl
      | cons a as =>
        obtain ⟨⟨tr', h'⟩, a', as', hc'', hle⟩ := under_finish hu hr (op := op) (a := a) (as := as)
          (by show some (Job.mk op (τ.st.actsOf op)) = _; rw [hacts]) hop
        have h1 := (finish_bounds (timed_due h') (runs_todo h'.runs) hc'' (no_observe (runs_inv h'.runs) hc'' hop)).1
        have hc₁ : some (Job.mk op (τ.st.actsOf op)) = some ⟨op, a :: as⟩ := by rw [hacts]
        have h2 := (finish_bounds (timed_due hr) (runs_todo hr.runs) hc₁ (no_observe (runs_inv hr.runs) hc₁ hop)).2
        refine Nat.le_trans h1 (Nat.le_trans hle (Nat.le_trans h2 ?_))
        show τ.clock + timesOf L τ.st (a :: as) + reserve L τ.st (a :: as) ≤ _
        rw [← hacts]
        have := call_plan L τ.st op hop
        omega

/-- C96: with the read timeout of the library and negligible time for everything else, stopping takes at most half a second
per server and the time its observers need for one message. -/
theorem C96_stop_default (L : Limits) (h500 : L.recv = readTimeout) (h0 : L.step = 0) (tr : List Ev) (τ τ₁ τ' : Timed)
    (h : TimedRuns L tr τ) (hi : TimedStep L τ .app [.invoked .stop] τ₁) (hu : Under L τ₁ τ') :
    τ'.clock ≤ τ.clock + ((τ.st.ucast ++ τ.st.mcast).map (fun s => 500 + obsCount τ.st s * L.call)).sum := by
  have := C96_in_time L tr τ τ₁ τ' .stop h hi hu (fun o => by simp)
  have e : stopTime L τ.st = fun s => 500 + obsCount τ.st s * L.call := by
    funext s; simp [stopTime, h500, h0, readTimeout]
  simp only [callTime, e, h0] at this
  omega

/-- C96: nor does a call get stuck: as long as `start` or `stop` goes on, the caller or a receiver thread can take a step
(with the receiver threads waiting for datagrams at most until their read timeouts). -/
theorem C96_progress (L : Limits) (tr : List Ev) (τ : Timed) (op : MOp) (acts : List Act) (h : TimedRuns L tr τ)
    (hc : τ.st.caller = some ⟨op, acts⟩) (hop : ∀ o, op ≠ .addObserver o) :
    ∃ w evs τ', TimedStep L τ w evs τ' ∧ w ≠ .app ∧ Step τ.st w evs τ'.st := by
  suffices hg : ∃ w evs σ', w ≠ .app ∧ Step τ.st w evs σ' by
    obtain ⟨w, evs, σ', h1, h2⟩ := hg
    exact ⟨w, evs, _, .act w evs σ' h2, h1, h2⟩
  have sinv := runs_inv h.runs
  obtain ⟨l, r, hl⟩ := runs_ret h.runs _ _ hc
  cases acts with
  | nil => simp at hl
  | cons a as =>
    have hob := no_observe sinv hc hop
    have go : ∀ {evs σ'}, Do τ.st op as a evs σ' → ∃ w evs σ', w ≠ .app ∧ Step τ.st w evs σ' :=
      fun hd => ⟨.caller, _, _, by simp, .caller _ _ _ _ _ hc hd⟩
    cases a with
    | spawnM e =>
      cases hb : multicastBind e with
      | panic => exact go (.crashM e hb)
      | ok b => cases b with
        | true => exact go (.spawnM e hb)
        | false => exact go (.skipM e hb)
    | spawnU e =>
      cases hb : unicastBind e with
      | true => exact go (.spawnU e hb)
      | false => exact go (.skipU e hb)
    | readyM =>
      cases hb : τ.st.mcast.isEmpty with
      | true => exact go (.failM hb)
      | false => exact go (.readyM hb)
    | readyU =>
      cases hb : τ.st.ucast.isEmpty with
      | true => exact go (.failU hb)
      | false => exact go (.readyU hb)
    | flag s => exact go (.flag s)
    | clearU => exact go .clearU
    | clearM => exact go .clearM
    | ret r => exact go (.ret r)
    | observe s o => exact (hob s o rfl).elim
    | join s =>
      have hlt : s < τ.st.srvs.length := by
        cases sinv.job _ _ hc with
        | starting ho h => simpa using h _ List.mem_cons_self
        | stopping h _ => exact h.ids s (Or.inr List.mem_cons_self)
        | observing o' ho h => exact (hop o' ho).elim
      obtain ⟨v, hv⟩ : ∃ v, τ.st.srvs[s]? = some v := ⟨_, List.getElem?_eq_getElem hlt⟩
      have th : ∀ {evs v'}, Recv s v evs v' → ∃ w evs σ', w ≠ .app ∧ Step τ.st w evs σ' :=
        fun hr => ⟨.thread s, _, _, by simp, .thread s v _ _ hv hr⟩
      cases hh : v.handle with
      | false => exact go (.noHandle s v hv hh)
      | true =>
        cases hp : v.pc with
        | finished => exact go (.joined s v hv hh hp)
        | panicked => exact go (.joinCrash s v hv hh hp)
        | check =>
          cases hf : v.stop with
          | true => exact th (.exit hp hf)
          | false => exact th (.wait hp hf)
        | recv => exact th (.got .timeout hp)
        | handing m =>
          cases hq : v.poisoned with
          | true => exact th (.lockPoisoned m hp hq)
          | false => exact th (.lock m hp hq)
        | calling m todo =>
          cases todo with
          | nil => exact th (.next m hp)
          | cons o os => exact th (.call m o os hp)

/-- C96: a socket is bound if and only if one of three attempts succeeds; each failed attempt costs a tenth of a second, and
so a bind takes at most 300 ms. -/
theorem C96_bind (attempt : Nat → Bool) :
    ((bindSocket attempt).1 = true ↔ ∃ i, i < 3 ∧ attempt i = true) ∧
    (∀ k, attempt k = true → (∀ i, i < k → attempt i = false) → (bindSocket attempt).2 = 100 * min k 3) ∧
    ((∀ i, i < 3 → attempt i = false) → (bindSocket attempt).2 = 300) ∧ (bindSocket attempt).2 ≤ 300 := by
  have hx : ∀ P : Nat → Prop, (∃ i, i < 3 ∧ P i) ↔ P 0 ∨ P 1 ∨ P 2 := by
    intro P
    constructor
    · rintro ⟨i, hi, hp⟩
      match i, hi with
      | 0, _ => exact Or.inl hp
      | 1, _ => exact Or.inr (Or.inl hp)
      | 2, _ => exact Or.inr (Or.inr hp)
    · rintro (h | h | h)
      · exact ⟨0, by omega, h⟩
      · exact ⟨1, by omega, h⟩
      · exact ⟨2, by omega, h⟩
  rw [hx]
  refine ⟨?_, ?_, ?_, ?_⟩
  · cases h0 : attempt 0 <;> cases h1 : attempt 1 <;> cases h2 : attempt 2 <;>
      simp [bindSocket, bindRetryMax, bindLoop, h0, h1, h2]
  · intro k hk hlt
    match k, hk, hlt with
    | 0, hk, _ => simp [bindSocket, bindRetryMax, bindLoop, hk]
    | 1, hk, hlt => simp [bindSocket, bindRetryMax, bindLoop, bindSleep, hk, hlt 0 (by omega)]
    | 2, hk, hlt => simp [bindSocket, bindRetryMax, bindLoop, bindSleep, hk, hlt 0 (by omega), hlt 1 (by omega)]
    | k + 3, hk, hlt =>
      have : min (k + 3) 3 = 3 := by omega
      rw [this]
      simp [bindSocket, bindRetryMax, bindLoop, bindSleep, hlt 0 (by omega), hlt 1 (by omega), hlt 2 (by omega)]
  · intro hf
    simp [bindSocket, bindRetryMax, bindLoop, bindSleep, hf 0 (by omega), hf 1 (by omega), hf 2 (by omega)]
  · cases h0 : attempt 0 <;> cases h1 : attempt 1 <;> cases h2 : attempt 2 <;>
      simp [bindSocket, bindRetryMax, bindLoop, bindSleep, h0, h1, h2]

/-! ### The bound is reached -/

/-- The library's read timeout; nothing else takes time. -/
def exLimits : Limits := ⟨readTimeout, 0, 0, 0⟩

/-- C96: the clock takes nothing away: whatever can happen without it, can happen in no time. -/
theorem C96_any_run (L : Limits) (tr : List Ev) (σ : St) (h : Runs tr σ) :
    ∃ dueT dueC, TimedRuns L tr ⟨σ, 0, dueT, dueC⟩ := by
  induction h with
  | new => exact ⟨fun _ => 0, 0, .new _ _⟩
  | step h hs ih =>
    obtain ⟨_, _, ih⟩ := ih
    exact ⟨_, _, .step ih (.act _ _ _ hs)⟩

/-- A multicast server (0) and a unicast server (1), at given places, with the stop flags, the handle of the second, the
unicast servers and the caller. -/
def exAt (p0 p1 : Pc) (f0 f1 h1 : Bool) (u : List Nat) (c : Option Job) : St :=
  ⟨[⟨exIf.addr, [], false, f0, true, p0⟩, ⟨exIf.addr, [], false, f1, h1, p1⟩], u, [0], c⟩

theorem exAct {p0 p1 : Pc} {f0 f1 h1 : Bool} {u : List Nat} {c : Option Job} {σ : St} {k : Nat} {dT : Nat → Nat} {dC : Nat}
    {w : Who} {evs : List Ev} (hl : σ.srvs.length = 2) (hs : Step σ w evs (exAt p0 p1 f0 f1 h1 u c)) :
    ∃ dT' dC', TimedStep exLimits ⟨σ, k, dT, dC⟩ w evs ⟨exAt p0 p1 f0 f1 h1 u c, k, dT', dC'⟩ ∧
      dT' 0 = (if w = .thread 0 then k + exLimits.at p0 else dT 0) ∧
      dT' 1 = (if w = .thread 1 then k + exLimits.at p1 else dT 1) ∧
      dC' = (if w.isThread && σ.ready then dC else k + exLimits.caller (exAt p0 p1 f0 f1 h1 u c)) := by
  refine ⟨_, _, .act _ _ _ hs, ?_, ?_, rfl⟩
  · simp [exAt, hl]
  · simp [exAt, hl]

/-- Both servers run and wait. -/
theorem exWaiting : ∃ tr dT dC, TimedRuns exLimits tr ⟨exAt .recv .recv false false true [1] none, 0, dT, dC⟩ ∧
    dT 0 = 500 ∧ dT 1 = 500 := by
  have h1 := Runs.step Runs.new (.invoke (.start [exIf] [exIf]) rfl)
  have h2 := Runs.step h1 (.caller _ _ _ _ _ rfl (.spawnM exIf rfl))
  have h3 := Runs.step h2 (.caller _ _ _ _ _ rfl (.readyM rfl))
  have h4 := Runs.step h3 (.caller _ _ _ _ _ rfl (.spawnU exIf rfl))
  have h5 := Runs.step h4 (.caller _ _ _ _ _ rfl (.readyU rfl))
  have h6 := Runs.step h5 (.caller _ _ _ _ _ rfl (.ret true))
  obtain ⟨dT, dC, h⟩ := C96_any_run exLimits _ (exAt .check .check false false true [1] none) h6
  obtain ⟨dT7, dC7, s7, e7, _, _⟩ := exAct (p0 := .recv) (p1 := .check) (f0 := false) (f1 := false) (h1 := true) (u := [1])
    (c := none) (k := 0) (dT := dT) (dC := dC) rfl (.thread (σ := exAt .check .check false false true [1] none) 0 _ _ _ rfl (.wait rfl rfl))
  obtain ⟨dT8, dC8, s8, e8, e8', _⟩ := exAct (p0 := .recv) (p1 := .recv) (f0 := false) (f1 := false) (h1 := true) (u := [1])
    (c := none) (k := 0) (dT := dT7) (dC := dC7) rfl (.thread (σ := exAt .recv .check false false true [1] none) 1 _ _ _ rfl (.wait rfl rfl))
  refine ⟨_, dT8, dC8, (h.step s7).step s8, ?_, ?_⟩
  · rw [e8, if_neg (by decide), e7]; rfl
  · rw [e8']; rfl

/-- The caller in `stop`, with the given steps to go. -/
def exJob (as : List Act) : Option Job := some ⟨.stop, as⟩

/-- C96: the bound is the best possible one: one multicast and one unicast server, which wait for datagrams that do not
come. Stopping the first one takes half a second, in which the other one begins to wait again: `stop` is called at time 0
and goes on at time 1000. -/
theorem C96_tight : ∃ tr τ τ₁ τ', TimedRuns exLimits tr τ ∧ TimedStep exLimits τ .app [.invoked .stop] τ₁ ∧
    Under exLimits τ₁ τ' ∧ τ.clock = 0 ∧ τ'.clock = 1000 ∧ callTime exLimits τ.st .stop = 1000 := by
  obtain ⟨tr, dT, dC, h, a0, a1⟩ := exWaiting
  obtain ⟨dT1, dC1, s1, b0, b1, -⟩ := exAct (p0 := .recv) (p1 := .recv) (f0 := false) (f1 := false) (h1 := true) (u := [1])
    (c := exJob [.flag 1, .join 1, .clearU, .flag 0, .join 0, .clearM, .ret true]) (k := 0) (dT := dT) (dC := dC) rfl
    (.invoke (σ := exAt .recv .recv false false true [1] none) .stop rfl)
  rw [if_neg (by decide), a0] at b0
  rw [if_neg (by decide), a1] at b1
  clear a0 a1
  obtain ⟨dT2, dC2, s2, c0, c1, -⟩ := exAct (p0 := .recv) (p1 := .recv) (f0 := false) (f1 := true) (h1 := true) (u := [1])
    (c := exJob [.join 1, .clearU, .flag 0, .join 0, .clearM, .ret true]) (k := 0) (dT := dT1) (dC := dC1) rfl
    (.caller (σ := exAt .recv .recv false false true [1] (exJob [.flag 1, .join 1, .clearU, .flag 0, .join 0, .clearM, .ret true]))
      _ _ _ _ _ rfl (.flag 1))
  rw [if_neg (by decide), b0] at c0
  rw [if_neg (by decide), b1] at c1
  clear b0 b1
  have s3 : TimedStep exLimits ⟨exAt .recv .recv false true true [1] (exJob [.join 1, .clearU, .flag 0, .join 0, .clearM, .ret true]),
      0, dT2, dC2⟩ .app [] ⟨exAt .recv .recv false true true [1] (exJob [.join 1, .clearU, .flag 0, .join 0, .clearM, .ret true]),
      0 + 500, dT2, dC2⟩ := .wait .app 500 (fun s v hv _ => by
        match s, hv with
        | 0, _ => exact Nat.le_of_eq c0.symm
        | 1, _ => exact Nat.le_of_eq c1.symm
        | _ + 2, hv => simp [exAt] at hv) (fun hr => by cases hr)
  obtain ⟨dT4, dC4, s4, -, -, -⟩ := exAct (p0 := .recv) (p1 := .check) (f0 := false) (f1 := true) (h1 := true) (u := [1])
    (c := exJob [.join 1, .clearU, .flag 0, .join 0, .clearM, .ret true]) (k := 0 + 500) (dT := dT2) (dC := dC2) rfl
    (.thread (σ := exAt .recv .recv false true true [1] (exJob [.join 1, .clearU, .flag 0, .join 0, .clearM, .ret true]))
      1 _ _ _ rfl (.got .timeout rfl))
  obtain ⟨dT5, dC5, s5, -, -, -⟩ := exAct (p0 := .check) (p1 := .check) (f0 := false) (f1 := true) (h1 := true) (u := [1])
    (c := exJob [.join 1, .clearU, .flag 0, .join 0, .clearM, .ret true]) (k := 0 + 500) (dT := dT4) (dC := dC4) rfl
    (.thread (σ := exAt .recv .check false true true [1] (exJob [.join 1, .clearU, .flag 0, .join 0, .clearM, .ret true]))
      0 _ _ _ rfl (.got .timeout rfl))
  obtain ⟨dT6, dC6, s6, d0, -, -⟩ := exAct (p0 := .recv) (p1 := .check) (f0 := false) (f1 := true) (h1 := true) (u := [1])
    (c := exJob [.join 1, .clearU, .flag 0, .join 0, .clearM, .ret true]) (k := 0 + 500) (dT := dT5) (dC := dC5) rfl
    (.thread (σ := exAt .check .check false true true [1] (exJob [.join 1, .clearU, .flag 0, .join 0, .clearM, .ret true]))
      0 _ _ _ rfl (.wait rfl rfl))
  rw [if_pos rfl] at d0
  obtain ⟨dT7, dC7, s7, e0, -, -⟩ := exAct (p0 := .recv) (p1 := .finished) (f0 := false) (f1 := true) (h1 := true) (u := [1])
    (c := exJob [.join 1, .clearU, .flag 0, .join 0, .clearM, .ret true]) (k := 0 + 500) (dT := dT6) (dC := dC6) rfl
    (.thread (σ := exAt .recv .check false true true [1] (exJob [.join 1, .clearU, .flag 0, .join 0, .clearM, .ret true]))
      1 _ _ _ rfl (.exit rfl rfl))
  rw [if_neg (by decide), d0] at e0
  obtain ⟨dT8, dC8, s8, f0, -, -⟩ := exAct (p0 := .recv) (p1 := .finished) (f0 := false) (f1 := true) (h1 := false) (u := [1])
    (c := exJob [.clearU, .flag 0, .join 0, .clearM, .ret true]) (k := 0 + 500) (dT := dT7) (dC := dC7) rfl
    (.caller (σ := exAt .recv .finished false true true [1] (exJob [.join 1, .clearU, .flag 0, .join 0, .clearM, .ret true]))
      _ _ _ _ _ rfl (.joined 1 _ rfl rfl rfl))
  rw [if_neg (by decide), e0] at f0
  obtain ⟨dT9, dC9, s9, g0, -, -⟩ := exAct (p0 := .recv) (p1 := .finished) (f0 := false) (f1 := true) (h1 := false) (u := [])
    (c := exJob [.flag 0, .join 0, .clearM, .ret true]) (k := 0 + 500) (dT := dT8) (dC := dC8) rfl
    (.caller (σ := exAt .recv .finished false true false [1] (exJob [.clearU, .flag 0, .join 0, .clearM, .ret true]))
      _ _ _ _ _ rfl .clearU)
  rw [if_neg (by decide), f0] at g0
  obtain ⟨dT10, dC10, s10, i0, -, -⟩ := exAct (p0 := .recv) (p1 := .finished) (f0 := true) (f1 := true) (h1 := false) (u := [])
    (c := exJob [.join 0, .clearM, .ret true]) (k := 0 + 500) (dT := dT9) (dC := dC9) rfl
    (.caller (σ := exAt .recv .finished false true false [] (exJob [.flag 0, .join 0, .clearM, .ret true]))
      _ _ _ _ _ rfl (.flag 0))
  rw [if_neg (by decide), g0] at i0
  have s11 : TimedStep exLimits ⟨exAt .recv .finished true true false [] (exJob [.join 0, .clearM, .ret true]),
      0 + 500, dT10, dC10⟩ .app [] ⟨exAt .recv .finished true true false [] (exJob [.join 0, .clearM, .ret true]),
      0 + 500 + 500, dT10, dC10⟩ := .wait .app 500 (fun s v hv ho => by
        match s, hv, ho with
        | 0, _, _ => exact Nat.le_of_eq i0.symm
        | 1, hv, ho => cases hv; cases ho
        | _ + 2, hv, _ => simp [exAt] at hv) (fun hr => by cases hr)
  exact ⟨_, _, _, _, h, s1, ((((((((((Under.refl _).step s2 nofun).step s3 nofun).step s4 nofun).step s5 nofun).step s6 nofun).step
    s7 nofun).step s8 nofun).step s9 nofun).step s10 nofun).step s11 nofun, rfl, rfl, rfl⟩

end Uecho
