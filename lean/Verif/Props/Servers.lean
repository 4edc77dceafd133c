import Verif.Spec.Servers
import Verif.Props.Exchange
/-!
# The running transport: C77, C78
-/
namespace Uecho
open Spec Live

/-! ## Invariants -/

/-- The thread of server `s` has ended. -/
def DeadSrv (v : Srv) : Prop := v.pc = .finished ∨ v.pc = .panicked

def LiveAt (σ : St) (s : Nat) : Prop := ∃ v, σ.srvs[s]? = some v ∧ ¬ DeadSrv v

/-- The steps of a stopping call. -/
structure Stopping (σ : St) (op : MOp) (acts : List Act) : Prop where
  shape : ∃ l r, acts = l ++ [.ret r] ∧ (op = .stop → r = true) ∧
    ∀ a ∈ l, (∃ s, a = .flag s) ∨ (∃ s, a = .join s) ∨ a = .clearU ∨ a = .clearM
  ids : ∀ s, (.flag s ∈ acts ∨ .join s ∈ acts) → s < σ.srvs.length
  ucast : σ.ucast = [] ∨ ∃ pre post, acts = pre ++ .clearU :: post ∧ .clearU ∉ pre ∧ ∀ s ∈ σ.ucast, LiveAt σ s → .join s ∈ pre
  mcast : σ.mcast = [] ∨ ∃ pre post, acts = pre ++ .clearM :: post ∧ .clearM ∉ pre ∧ ∀ s ∈ σ.mcast, LiveAt σ s → .join s ∈ pre

def IsStart : MOp → Prop
  | .start _ _ => True
  | _ => False

/-- What a call may still have to do. -/
inductive JobOk (σ : St) (op : MOp) (acts : List Act) : Prop where
  | starting (ho : IsStart op) (h : ∀ a ∈ acts, (∃ e, a = .spawnM e) ∨ a = .readyM ∨ (∃ e, a = .spawnU e) ∨ a = .readyU ∨
      a = .ret true)
  | stopping (h : Stopping σ op acts) (ho : op = .stop ∨ IsStart op)
  | observing (o : ObserverRef) (ho : op = .addObserver o) (h : ∀ a ∈ acts, (∃ s, s < σ.srvs.length ∧ a = .observe s o) ∨ a = .ret true)

structure StInv (σ : St) : Prop where
  reg : ∀ s, LiveAt σ s → s ∈ σ.ucast ∨ s ∈ σ.mcast
  ids : ∀ s, s ∈ σ.ucast ∨ s ∈ σ.mcast → s < σ.srvs.length
  hand : ∀ (s : Nat) v, σ.srvs[s]? = some v → v.handle = false → DeadSrv v
  job : ∀ op acts, σ.caller = some ⟨op, acts⟩ → JobOk σ op acts

/-- The servers of `σ'` are those of `σ`, no dead one alive. -/
structure Fewer (σ σ' : St) : Prop where
  len : σ'.srvs.length = σ.srvs.length
  live : ∀ s, LiveAt σ' s → LiveAt σ s
  hand : ∀ (s : Nat) v', σ'.srvs[s]? = some v' → v'.handle = false → DeadSrv v' ∨ ∃ v, σ.srvs[s]? = some v ∧ v.handle = false ∧ (DeadSrv v → DeadSrv v')

theorem Stopping.fewer {σ σ' : St} {op : MOp} {acts : List Act} (h : Stopping σ op acts) (f : Fewer σ σ')
    (hu : σ'.ucast = σ.ucast) (hm : σ'.mcast = σ.mcast) : Stopping σ' op acts := by
  refine ⟨h.shape, ?_, ?_, ?_⟩
  · intro s hs; rw [f.len]; exact h.ids s hs
  · rw [hu]
    rcases h.ucast with h | ⟨pre, post, h1, h0, h2⟩
    · exact Or.inl h
    · exact Or.inr ⟨pre, post, h1, h0, fun s hs hl => h2 s hs (f.live s hl)⟩
  · rw [hm]
    rcases h.mcast with h | ⟨pre, post, h1, h0, h2⟩
    · exact Or.inl h
    · exact Or.inr ⟨pre, post, h1, h0, fun s hs hl => h2 s hs (f.live s hl)⟩

theorem JobOk.fewer {σ σ' : St} {op : MOp} {acts : List Act} (h : JobOk σ op acts) (f : Fewer σ σ')
    (hu : σ'.ucast = σ.ucast) (hm : σ'.mcast = σ.mcast) : JobOk σ' op acts := by
  cases h with
  | starting ho h => exact .starting ho h
  | stopping h ho => exact .stopping (h.fewer f hu hm) ho
  | observing o ho h => exact .observing o ho (by rw [f.len]; exact h)

theorem StInv.fewer {σ σ' : St} (h : StInv σ) (f : Fewer σ σ') (hu : σ'.ucast = σ.ucast) (hm : σ'.mcast = σ.mcast)
    (hj : ∀ op acts, σ'.caller = some ⟨op, acts⟩ → JobOk σ' op acts) : StInv σ' := by
  refine ⟨?_, ?_, ?_, hj⟩
  · intro s hs; rw [hu, hm]; exact h.reg s (f.live s hs)
  · intro s hs; rw [hu, hm] at hs; rw [f.len]; exact h.ids s hs
  · intro s v' hv' hh
    rcases f.hand s v' hv' hh with hd | ⟨v, hv, hh', hd⟩
    · exact hd
    · exact hd (h.hand s v hv hh')

theorem Fewer.refl (σ σ' : St) (h : σ'.srvs = σ.srvs) : Fewer σ σ' := by
  refine ⟨by rw [h], ?_, ?_⟩
  · intro s hs; unfold LiveAt at hs ⊢; rw [h] at hs; exact hs
  · intro s v hv hh; rw [h] at hv; exact Or.inr ⟨v, hv, hh, id⟩

theorem recv_dead {s : Nat} {v v' : Srv} {evs : List Ev} (h : Recv s v evs v') : ¬ DeadSrv v ∧ v'.handle = v.handle := by
  unfold DeadSrv
  cases h with
  | exit hp hf => rw [hp]; simp
  | wait hp hf => rw [hp]; simp
  | got e hp =>
    rw [hp]
    refine ⟨by simp, ?_⟩
    unfold Srv.received; split <;> rfl
  | lock m hp hl => rw [hp]; simp
  | lockPoisoned m hp hl => rw [hp]; simp
  | call m o os hp => rw [hp]; simp
  | die m o os hp => rw [hp]; simp
  | next m hp => rw [hp]; simp

theorem Fewer.set {σ : St} {s : Nat} {v v' : Srv} (hv : σ.srvs[s]? = some v) (hd : ¬ DeadSrv v)
    (hh : v'.handle = v.handle) (σ' : St) (h : σ'.srvs = σ.srvs.set s v') : Fewer σ σ' := by
  have hlt : s < σ.srvs.length := (List.getElem?_eq_some_iff.mp hv).1
  refine ⟨by rw [h]; simp, ?_, ?_⟩
  · rintro s' ⟨u, hu, hdu⟩
    rw [h, List.getElem?_set] at hu
    split at hu
    · rename_i he; subst he; exact ⟨v, hv, hd⟩
    · exact ⟨u, hu, hdu⟩
  · intro s' u hu hhu
    rw [h, List.getElem?_set] at hu
    split at hu
    · rename_i he; subst he
      simp only [hlt, if_true, Option.some.injEq] at hu
      subst hu
      exact Or.inr ⟨v, hv, by rw [← hh]; exact hhu, fun h => (hd h).elim⟩
    · exact Or.inr ⟨u, hu, hhu, id⟩

theorem Fewer.modify {σ : St} {s : Nat} (f : Srv → Srv) (hf : ∀ v, (f v).pc = v.pc)
    (hh : ∀ v, σ.srvs[s]? = some v → (f v).handle = v.handle ∨ DeadSrv v) (σ' : St) (h : σ'.srvs = σ.srvs.modify s f) :
    Fewer σ σ' := by
  refine ⟨by rw [h]; simp, ?_, ?_⟩
  · rintro s' ⟨u, hu, hdu⟩
    rw [h, List.getElem?_modify] at hu
    obtain ⟨v, hv, rfl⟩ := Option.map_eq_some_iff.mp hu
    refine ⟨v, hv, ?_⟩
    unfold DeadSrv at hdu ⊢
    split at hdu
    · rw [hf] at hdu; exact hdu
    · exact hdu
  · intro s' u hu hhu
    rw [h, List.getElem?_modify] at hu
    obtain ⟨v, hv, rfl⟩ := Option.map_eq_some_iff.mp hu
    split at hhu
    · rename_i he; subst he
      simp only [if_true]
      rcases hh v hv with hh | hh
      · rw [hh] at hhu
        exact Or.inr ⟨v, hv, hhu, fun hd => by unfold DeadSrv at hd ⊢; rw [hf]; exact hd⟩
      · exact Or.inl (by unfold DeadSrv at hh ⊢; rw [hf]; exact hh)
    · rename_i he
      simp only [if_neg he]
      exact Or.inr ⟨v, hv, hhu, id⟩

/-- The first step of a stopping call is done. -/
theorem Stopping.tail {σ σ' : St} {op : MOp} {a : Act} {as : List Act} (h : Stopping σ op (a :: as)) (f : Fewer σ σ')
    (hr : ∀ r, a ≠ .ret r) (hu : σ'.ucast = [] ∨ (σ'.ucast = σ.ucast ∧ a ≠ .clearU))
    (hm : σ'.mcast = [] ∨ (σ'.mcast = σ.mcast ∧ a ≠ .clearM)) (hj : ∀ s, a = .join s → ¬ LiveAt σ' s) :
    Stopping σ' op as := by
  refine ⟨?_, ?_, ?_, ?_⟩
  · obtain ⟨l, r, h1, h2, h3⟩ := h.shape
    cases l with
    | nil => simp only [List.nil_append, List.cons.injEq] at h1; exact (hr r h1.1).elim
    | cons b l =>
      simp only [List.cons_append, List.cons.injEq] at h1
      exact ⟨l, r, h1.2, h2, fun a ha => h3 a (by simp [ha])⟩
  · intro s hs
    rw [f.len]
    apply h.ids s
    rcases hs with hs | hs
    · exact Or.inl (by simp [hs])
    · exact Or.inr (by simp [hs])
  · rcases hu with hu | ⟨hu, ha⟩
    · exact Or.inl hu
    · rw [hu]
      rcases h.ucast with h | ⟨pre, post, h1, h0, h2⟩
      · exact Or.inl h
      · right
        cases pre with
        | nil => simp only [List.nil_append, List.cons.injEq] at h1; exact (ha h1.1).elim
        | cons b pre =>
          simp only [List.cons_append, List.cons.injEq] at h1
          refine ⟨pre, post, h1.2, fun h => h0 (by simp [h]), fun s hs hl => ?_⟩
          have := h2 s hs (f.live s hl)
          simp only [List.mem_cons] at this
          rcases this with h' | h'
          · exact (hj s (h1.1.trans h'.symm) hl).elim
          · exact h'
  · rcases hm with hm | ⟨hm, ha⟩
    · exact Or.inl hm
    · rw [hm]
      rcases h.mcast with h | ⟨pre, post, h1, h0, h2⟩
      · exact Or.inl h
      · right
        cases pre with
        | nil => simp only [List.nil_append, List.cons.injEq] at h1; exact (ha h1.1).elim
        | cons b pre =>
          simp only [List.cons_append, List.cons.injEq] at h1
          refine ⟨pre, post, h1.2, fun h => h0 (by simp [h]), fun s hs hl => ?_⟩
          have := h2 s hs (f.live s hl)
          simp only [List.mem_cons] at this
          rcases this with h' | h'
          · exact (hj s (h1.1.trans h'.symm) hl).elim
          · exact h'

theorem stopActs_stopping {σ : St} (hi : ∀ s, s ∈ σ.ucast ∨ s ∈ σ.mcast → s < σ.srvs.length) (op : MOp) (r : Bool)
    (hr : op = .stop → r = true) : Stopping σ op (σ.stopActs r) := by
  have hj : ∀ (l : List Nat) (s : Nat), s ∈ l → Act.join s ∈ l.flatMap (fun s => [Act.flag s, Act.join s]) := by
    intro l s hs
    rw [List.mem_flatMap]
    exact ⟨s, hs, by simp⟩
  refine ⟨?_, ?_, ?_, ?_⟩
  · refine ⟨σ.ucast.flatMap (fun s => [.flag s, .join s]) ++ [.clearU] ++ σ.mcast.flatMap (fun s => [.flag s, .join s]) ++ [.clearM],
      r, by simp [St.stopActs], hr, ?_⟩
    intro a ha
    simp only [List.mem_append, List.mem_flatMap, List.mem_cons, List.not_mem_nil, or_false] at ha
    rcases ha with ((⟨s, _, h | h⟩ | h) | ⟨s, _, h | h⟩) | h
    · exact Or.inl ⟨s, h⟩
    · exact Or.inr (Or.inl ⟨s, h⟩)
    · exact Or.inr (Or.inr (Or.inl h))
    · exact Or.inl ⟨s, h⟩
    · exact Or.inr (Or.inl ⟨s, h⟩)
    · exact Or.inr (Or.inr (Or.inr h))
  · intro s hs
    have key : s ∈ σ.ucast ∨ s ∈ σ.mcast := by
      simp only [St.stopActs, List.mem_append, List.mem_flatMap, List.mem_cons, List.not_mem_nil, or_false, reduceCtorEq,
        Act.flag.injEq, Act.join.injEq, false_or] at hs
      rcases hs with (⟨a, h1, h2⟩ | ⟨a, h1, h2⟩) | (⟨a, h1, h2⟩ | ⟨a, h1, h2⟩)
      · exact Or.inl (by rw [h2]; exact h1)
      · exact Or.inr (by rw [h2]; exact h1)
      · exact Or.inl (by rw [h2]; exact h1)
      · exact Or.inr (by rw [h2]; exact h1)
    exact hi s key
  · exact Or.inr ⟨_, _, by simp [St.stopActs]; rfl, by simp, fun s hs _ => hj _ s hs⟩
  · right
    refine ⟨σ.ucast.flatMap (fun s => [.flag s, .join s]) ++ [.clearU] ++ σ.mcast.flatMap (fun s => [.flag s, .join s]), [.ret r],
      by simp [St.stopActs], by simp, fun s hs _ => List.mem_append_right _ (hj _ s hs)⟩

theorem Stopping.head {σ : St} {op : MOp} {a : Act} {as : List Act} (h : Stopping σ op (a :: as)) :
    (∃ s, a = .flag s) ∨ (∃ s, a = .join s) ∨ a = .clearU ∨ a = .clearM ∨
      (as = [] ∧ ∃ r, a = .ret r ∧ (op = .stop → r = true)) := by
  obtain ⟨l, r, h1, h2, h3⟩ := h.shape
  cases l with
  | nil => simp only [List.nil_append, List.cons.injEq] at h1; exact Or.inr (Or.inr (Or.inr (Or.inr ⟨h1.2, r, h1.1, h2⟩)))
  | cons b l =>
    simp only [List.cons_append, List.cons.injEq] at h1
    obtain ⟨rfl, _⟩ := h1
    rcases h3 a (by simp) with h | h | h | h
    · exact Or.inl h
    · exact Or.inr (Or.inl h)
    · exact Or.inr (Or.inr (Or.inl h))
    · exact Or.inr (Or.inr (Or.inr (Or.inl h)))

/-- When a stopping call returns, no server is left. -/
theorem Stopping.done {σ : St} {op : MOp} {r : Bool} {as : List Act} (h : Stopping σ op (.ret r :: as)) :
    σ.ucast = [] ∧ σ.mcast = [] := by
  have has : as = [] := by
    rcases h.head with ⟨s, h⟩ | ⟨s, h⟩ | h | h | h
    · simp at h
    · simp at h
    · simp at h
    · simp at h
    · exact h.1
  subst has
  constructor
  · rcases h.ucast with h | ⟨pre, post, h, _⟩
    · exact h
    · have := congrArg List.length h
      cases pre with
      | nil => simp at h
      | cons b pre => simp at h
  · rcases h.mcast with h | ⟨pre, post, h, _⟩
    · exact h
    · cases pre with
      | nil => simp at h
      | cons b pre => simp at h

/-- A call that stops ends with everything stopped. -/
theorem StInv.returns {σ : St} {op : MOp} {r : Bool} {as : List Act} (h : StInv σ) (hc : σ.caller = some ⟨op, .ret r :: as⟩)
    (hs : op = .stop ∨ (IsStart op ∧ r = false)) :
    σ.ucast = [] ∧ σ.mcast = [] ∧ (∀ s, ¬ LiveAt σ s) ∧ (op = .stop → r = true) := by
  have key : Stopping σ op (.ret r :: as) := by
    cases h.job _ _ hc with
    | starting ho h =>
      rcases hs with rfl | ⟨_, rfl⟩
      · exact ho.elim
      · have := h (.ret false) (by simp); simp at this
    | stopping h _ => exact h
    | observing o ho _ =>
      rcases hs with rfl | ⟨hs, _⟩
      · simp at ho
      · rw [ho] at hs; exact hs.elim
  obtain ⟨h1, h2⟩ := key.done
  refine ⟨h1, h2, ?_, ?_⟩
  · intro s hl
    have := h.reg s hl
    rw [h1, h2] at this
    simp at this
  · rcases key.head with ⟨s, h⟩ | ⟨s, h⟩ | h | h | ⟨_, r', h, hr⟩
    · simp at h
    · simp at h
    · simp at h
    · simp at h
    · simp only [Act.ret.injEq] at h; rw [h]; exact hr

theorem StInv.spawned {σ σ' : St} {op : MOp} {as : List Act} (inv : StInv σ) (ip : IpAddr)
    (h1 : σ'.srvs = σ.srvs ++ [Srv.spawned ip])
    (h2 : ∀ s, s ∈ σ'.ucast ∨ s ∈ σ'.mcast ↔ (s ∈ σ.ucast ∨ s ∈ σ.mcast) ∨ s = σ.srvs.length)
    (h3 : σ'.caller = some ⟨op, as⟩) (ho : IsStart op)
    (ha : ∀ a ∈ as, (∃ e, a = .spawnM e) ∨ a = .readyM ∨ (∃ e, a = .spawnU e) ∨ a = .readyU ∨ a = .ret true) : StInv σ' := by
  have hold : ∀ s, s ≠ σ.srvs.length → σ'.srvs[s]? = σ.srvs[s]? := by
    intro s hs
    rw [h1]
    by_cases hlt : s < σ.srvs.length
    · rw [List.getElem?_append_left hlt]
    · rw [List.getElem?_append_right (by omega), List.getElem?_eq_none (by simp; omega), List.getElem?_eq_none (by omega)]
  refine ⟨?_, ?_, ?_, ?_⟩
  · intro s hs
    rw [h2]
    by_cases he : s = σ.srvs.length
    · exact Or.inr he
    · left
      apply inv.reg
      unfold LiveAt at hs ⊢
      rw [hold s he] at hs; exact hs
  · intro s hs
    rw [h1, List.length_append, List.length_singleton]
    rcases (h2 s).mp hs with h | h
    · have := inv.ids s h; omega
    · omega
  · intro s v hv hh
    by_cases he : s = σ.srvs.length
    · subst he
      rw [h1, List.getElem?_append_right (Nat.le_refl _), Nat.sub_self] at hv
      simp only [List.getElem?_cons_zero, Option.some.injEq] at hv
      subst hv; simp [Srv.spawned] at hh
    · rw [hold s he] at hv; exact inv.hand s v hv hh
  · intro op' acts hc
    rw [h3] at hc
    simp only [Option.some.injEq, Job.mk.injEq] at hc
    obtain ⟨rfl, rfl⟩ := hc
    exact .starting ho ha

/-- The job of the next step. -/
theorem JobOk.next {σ σ' : St} {op : MOp} {a : Act} {as : List Act} (h : JobOk σ op (a :: as)) (f : Fewer σ σ')
    (hr : ∀ r, a ≠ .ret r) (hu : σ'.ucast = σ.ucast) (hm : σ'.mcast = σ.mcast) (hj : ∀ s, a = .join s → ¬ LiveAt σ' s)
    (hau : a ≠ .clearU) (ham : a ≠ .clearM) : JobOk σ' op as := by
  cases h with
  | starting ho h => exact .starting ho (fun x hx => h x (by simp [hx]))
  | stopping h ho => exact .stopping (h.tail f hr (Or.inr ⟨hu, hau⟩) (Or.inr ⟨hm, ham⟩) hj) ho
  | observing o ho h => exact .observing o ho (by rw [f.len]; exact fun x hx => h x (by simp [hx]))

theorem StInv.step {σ σ' : St} {w : Who} {evs : List Ev} (inv : StInv σ) (hs : Step σ w evs σ') : StInv σ' := by
  have none_job : ∀ {τ : St}, τ.caller = none → ∀ op acts, τ.caller = some ⟨op, acts⟩ → JobOk τ op acts := by
    intro τ h op acts hc; rw [h] at hc; simp at hc
  have some_job : ∀ {τ : St} {op : MOp} {as : List Act}, τ.caller = some ⟨op, as⟩ → JobOk τ op as →
      ∀ op' acts, τ.caller = some ⟨op', acts⟩ → JobOk τ op' acts := by
    intro τ op as h hj op' acts hc
    rw [h] at hc
    simp only [Option.some.injEq, Job.mk.injEq] at hc
    obtain ⟨rfl, rfl⟩ := hc
    exact hj
  cases hs with
  | thread s v v' _ hv hr =>
    obtain ⟨hd, hh⟩ := recv_dead hr
    have f : Fewer σ { σ with srvs := σ.srvs.set s v' } := .set hv hd hh _ rfl
    exact inv.fewer f rfl rfl (fun op acts hc => (inv.job op acts hc).fewer f rfl rfl)
  | invoke op hc =>
    have f : Fewer σ { σ with caller := some ⟨op, σ.actsOf op⟩ } := .refl _ _ rfl
    refine inv.fewer f rfl rfl (some_job rfl ?_)
    cases op with
    | start menv uenv =>
      refine .starting trivial ?_
      intro a ha
      simp only [St.actsOf] at ha
      split at ha
      · simp only [List.mem_cons, List.not_mem_nil, or_false] at ha
        simp [ha]
      · simp only [List.mem_append, List.mem_cons, List.not_mem_nil, or_false] at ha
        rcases ha with ((ha | ha) | ha) | ha | ha
        · split at ha
          · obtain ⟨e, _, rfl⟩ := List.mem_map.mp ha; simp
          · simp at ha
        · simp [ha]
        · split at ha
          · obtain ⟨e, _, rfl⟩ := List.mem_map.mp ha; simp
          · simp at ha
        · simp [ha]
        · simp [ha]
    | stop => exact .stopping ((stopActs_stopping inv.ids _ _ (fun _ => rfl)).fewer f rfl rfl) (Or.inl rfl)
    | addObserver o =>
      refine .observing o rfl ?_
      intro a ha
      simp only [St.actsOf, List.mem_append, List.mem_map, List.mem_cons, List.not_mem_nil, or_false] at ha
      rcases ha with ⟨s, h1, rfl⟩ | rfl
      · exact Or.inl ⟨s, inv.ids s h1, rfl⟩
      · exact Or.inr rfl
  | caller op a as _ _ hc hd =>
    have hj := inv.job _ _ hc
    have hstart : ∀ {b : Act}, a = b → ((∃ e, b = .spawnM e) ∨ b = .readyM ∨ (∃ e, b = .spawnU e) ∨ b = .readyU) →
        IsStart op ∧ ∀ x ∈ as, (∃ e, x = Act.spawnM e) ∨ x = .readyM ∨ (∃ e, x = .spawnU e) ∨ x = .readyU ∨ x = .ret true := by
      intro b hb hbb
      subst hb
      cases hj with
      | starting ho h => exact ⟨ho, fun x hx => h x (by simp [hx])⟩
      | stopping h ho =>
        rcases h.head with ⟨s, h⟩ | ⟨s, h⟩ | h | h | ⟨_, _, h, _⟩ <;> rw [h] at hbb <;> simp at hbb
      | observing o ho h =>
        rcases h a (by simp) with ⟨s, _, h⟩ | h <;> rw [h] at hbb <;> simp at hbb
    cases hd with
    | spawnM e h =>
      obtain ⟨ho, ha⟩ := hstart rfl (by simp)
      exact inv.spawned e.addr rfl (by intro s; simp [or_assoc]) rfl ho ha
    | skipM e h =>
      obtain ⟨ho, ha⟩ := hstart rfl (by simp)
      exact inv.fewer (.refl _ _ rfl) rfl rfl (some_job rfl (.starting ho ha))
    | crashM e h => exact inv.fewer (.refl _ _ rfl) rfl rfl (none_job rfl)
    | readyM h =>
      obtain ⟨ho, ha⟩ := hstart rfl (by simp)
      exact inv.fewer (.refl _ _ rfl) rfl rfl (some_job rfl (.starting ho ha))
    | failM h =>
      obtain ⟨ho, ha⟩ := hstart rfl (by simp)
      have f : Fewer σ { σ with caller := some ⟨op, σ.stopActs false⟩ } := .refl _ _ rfl
      refine inv.fewer f rfl rfl (some_job rfl (.stopping ?_ (Or.inr ho)))
      exact (stopActs_stopping inv.ids op false (by intro h; rw [h] at ho; exact ho.elim)).fewer f rfl rfl
    | spawnU e h =>
      obtain ⟨ho, ha⟩ := hstart rfl (by simp)
      exact inv.spawned e.addr rfl (by
        intro s; simp only [List.mem_append, List.mem_cons, List.not_mem_nil, or_false]
        constructor
        · rintro ((h | h) | h)
          · exact Or.inl (Or.inl h)
          · exact Or.inr h
          · exact Or.inl (Or.inr h)
        · rintro ((h | h) | h)
          · exact Or.inl (Or.inl h)
          · exact Or.inr h
          · exact Or.inl (Or.inr h)) rfl ho ha
    | skipU e h =>
      obtain ⟨ho, ha⟩ := hstart rfl (by simp)
      exact inv.fewer (.refl _ _ rfl) rfl rfl (some_job rfl (.starting ho ha))
    | readyU h =>
      obtain ⟨ho, ha⟩ := hstart rfl (by simp)
      exact inv.fewer (.refl _ _ rfl) rfl rfl (some_job rfl (.starting ho ha))
    | failU h =>
      obtain ⟨ho, ha⟩ := hstart rfl (by simp)
      have f : Fewer σ { σ with caller := some ⟨op, σ.stopActs false⟩ } := .refl _ _ rfl
      refine inv.fewer f rfl rfl (some_job rfl (.stopping ?_ (Or.inr ho)))
      exact (stopActs_stopping inv.ids op false (by intro h; rw [h] at ho; exact ho.elim)).fewer f rfl rfl
    | flag s =>
      have f : Fewer σ { σ.modify s (fun v => { v with stop := true }) with caller := some ⟨op, as⟩ } :=
        .modify (fun v => { v with stop := true }) (fun _ => rfl) (fun _ _ => Or.inl rfl) _ rfl
      exact inv.fewer f rfl rfl (some_job rfl (hj.next f (by simp) rfl rfl (by simp) (by simp) (by simp)))
    | joined s v hv hh hp =>
      have hd : DeadSrv v := Or.inl hp
      have f : Fewer σ { σ.modify s (fun v => { v with handle := false }) with caller := some ⟨op, as⟩ } :=
        .modify (fun v => { v with handle := false }) (fun _ => rfl)
          (fun u hu => by rw [hv, Option.some.injEq] at hu; subst hu; exact Or.inr hd) _ rfl
      refine inv.fewer f rfl rfl (some_job rfl (hj.next f (by simp) rfl rfl ?_ (by simp) (by simp)))
      intro s' hs' hl
      simp only [Act.join.injEq] at hs'
      subst hs'
      obtain ⟨u, hu, hdu⟩ := f.live _ hl
      rw [hv, Option.some.injEq] at hu
      subst hu; exact hdu hd
    | joinCrash s v hv hh hp =>
      have hd : DeadSrv v := Or.inr hp
      have f : Fewer σ { σ.modify s (fun v => { v with handle := false }) with caller := none } :=
        .modify (fun v => { v with handle := false }) (fun _ => rfl)
          (fun u hu => by rw [hv, Option.some.injEq] at hu; subst hu; exact Or.inr hd) _ rfl
      exact inv.fewer f rfl rfl (none_job rfl)
    | noHandle s v hv hh =>
      have f : Fewer σ { σ with caller := some ⟨op, as⟩ } := .refl _ _ rfl
      refine inv.fewer f rfl rfl (some_job rfl (hj.next f (by simp) rfl rfl ?_ (by simp) (by simp)))
      intro s' hs' hl
      simp only [Act.join.injEq] at hs'
      subst hs'
      obtain ⟨u, hu, hdu⟩ := f.live _ hl
      rw [hv, Option.some.injEq] at hu
      subst hu; exact hdu (inv.hand _ _ hv hh)
    | clearU =>
      have f : Fewer σ { σ with ucast := [], caller := some ⟨op, as⟩ } := .refl _ _ rfl
      have hst : Stopping σ op (.clearU :: as) ∧ (op = .stop ∨ IsStart op) := by
        cases hj with
        | starting ho h => have := h _ (List.mem_cons_self ..); simp at this
        | stopping h ho => exact ⟨h, ho⟩
        | observing o ho h => have := h _ (List.mem_cons_self ..); simp at this
      have hnl : ∀ s ∈ σ.ucast, ¬ LiveAt σ s := by
        intro s hs hl
        rcases hst.1.ucast with h0 | ⟨pre, post, h1, h0, h2⟩
        · rw [h0] at hs; simp at hs
        · have hpre := h2 s hs hl
          cases pre with
          | nil => simp at hpre
          | cons b pre =>
            simp only [List.cons_append, List.cons.injEq] at h1
            exact h0 (by simp [← h1.1])
      refine ⟨?_, ?_, inv.hand, some_job rfl (.stopping (hst.1.tail f (by simp) (Or.inl rfl) (Or.inr ⟨rfl, by simp⟩) (by simp)) hst.2)⟩
      · intro s hl
        have hl' : LiveAt σ s := hl
        rcases inv.reg s hl' with h | h
        · exact (hnl s h hl').elim
        · exact Or.inr h
      · intro s h
        simp only [List.not_mem_nil, false_or] at h
        exact inv.ids s (Or.inr h)
    | clearM =>
      have f : Fewer σ { σ with mcast := [], caller := some ⟨op, as⟩ } := .refl _ _ rfl
      have hst : Stopping σ op (.clearM :: as) ∧ (op = .stop ∨ IsStart op) := by
        cases hj with
        | starting ho h => have := h _ (List.mem_cons_self ..); simp at this
        | stopping h ho => exact ⟨h, ho⟩
        | observing o ho h => have := h _ (List.mem_cons_self ..); simp at this
      have hnl : ∀ s ∈ σ.mcast, ¬ LiveAt σ s := by
        intro s hs hl
        rcases hst.1.mcast with h0 | ⟨pre, post, h1, h0, h2⟩
        · rw [h0] at hs; simp at hs
        · have hpre := h2 s hs hl
          cases pre with
          | nil => simp at hpre
          | cons b pre =>
            simp only [List.cons_append, List.cons.injEq] at h1
            exact h0 (by simp [← h1.1])
      refine ⟨?_, ?_, inv.hand, some_job rfl (.stopping (hst.1.tail f (by simp) (Or.inr ⟨rfl, by simp⟩) (Or.inl rfl) (by simp)) hst.2)⟩
      · intro s hl
        have hl' : LiveAt σ s := hl
        rcases inv.reg s hl' with h | h
        · exact Or.inl h
        · exact (hnl s h hl').elim
      · intro s h
        simp only [List.not_mem_nil, or_false] at h
        exact inv.ids s (Or.inl h)
    | observe s o v hv hn hp =>
      have f : Fewer σ { σ.modify s (fun v => { v with observers := v.observers ++ [o] }) with caller := some ⟨op, as⟩ } :=
        .modify (fun v => { v with observers := v.observers ++ [o] }) (fun _ => rfl) (fun _ _ => Or.inl rfl) _ rfl
      exact inv.fewer f rfl rfl (some_job rfl (hj.next f (by simp) rfl rfl (by simp) (by simp) (by simp)))
    | observeCrash s o v hv hn hp => exact inv.fewer (.refl _ _ rfl) rfl rfl (none_job rfl)
    | ret r => exact inv.fewer (.refl _ _ rfl) rfl rfl (none_job rfl)

theorem runs_inv {tr : List Ev} {σ : St} (h : Runs tr σ) : StInv σ := by
  induction h with
  | new =>
    refine ⟨?_, ?_, ?_, ?_⟩
    · rintro s ⟨v, hv, _⟩; simp [St.new] at hv
    · intro s hs; simp [St.new] at hs
    · intro s v hv; simp [St.new] at hv
    · intro op acts hc; simp [St.new] at hc
  | step _ hs ih => exact ih.step hs

/-! ## C77 -/

/-- While all threads have ended and no `start` is under way, nothing happens on the receiving side. -/
theorem idle_step {σ σ' : St} {w : Who} {evs : List Ev} (inv : StInv σ) (hl : ∀ s, ¬ LiveAt σ s)
    (hc : ∀ op acts, σ.caller = some ⟨op, acts⟩ → ¬ IsStart op) (hs : Step σ w evs σ')
    (hn : ∀ e ∈ evs, ¬ Starts e) :
    (∀ s, ¬ LiveAt σ' s) ∧ (∀ op acts, σ'.caller = some ⟨op, acts⟩ → ¬ IsStart op) ∧ ∀ e ∈ evs, ¬ Traffic e := by
  cases hs with
  | thread s v v' _ hv hr => exact (hl s ⟨v, hv, (recv_dead hr).1⟩).elim
  | invoke op hc =>
    refine ⟨hl, ?_, by simp [Traffic]⟩
    intro op' acts h
    simp only [Option.some.injEq, Job.mk.injEq] at h
    obtain ⟨rfl, rfl⟩ := h
    intro ho
    apply hn (.invoked op) (by simp)
    cases op with
    | start _ _ => trivial
    | stop => exact ho.elim
    | addObserver _ => exact ho.elim
  | caller op a as _ _ hcal hd =>
    have hns := hc _ _ hcal
    have hj := inv.job _ _ hcal
    have keep : ∀ {τ : St}, τ.caller = some ⟨op, as⟩ ∨ τ.caller = none →
        ∀ op' acts, τ.caller = some ⟨op', acts⟩ → ¬ IsStart op' := by
      intro τ h op' acts h'
      rcases h with h | h
      · rw [h] at h'
        simp only [Option.some.injEq, Job.mk.injEq] at h'
        rw [← h'.1]; exact hns
      · rw [h] at h'; simp at h'
    have nostart : ∀ {b : Act}, a = b → ((∃ e, b = .spawnM e) ∨ b = .readyM ∨ (∃ e, b = .spawnU e) ∨ b = .readyU) → False := by
      intro b hb hbb
      subst hb
      cases hj with
      | starting ho h => exact hns ho
      | stopping h ho =>
        rcases h.head with ⟨s, h⟩ | ⟨s, h⟩ | h | h | ⟨_, _, h, _⟩ <;> rw [h] at hbb <;> simp at hbb
      | observing o ho h =>
        rcases h a (by simp) with ⟨s, _, h⟩ | h <;> rw [h] at hbb <;> simp at hbb
    cases hd with
    | spawnM e h => exact (nostart rfl (by simp)).elim
    | skipM e h => exact (nostart rfl (by simp)).elim
    | crashM e h => exact (nostart rfl (by simp)).elim
    | readyM h => exact (nostart rfl (by simp)).elim
    | failM h => exact (nostart rfl (by simp)).elim
    | spawnU e h => exact (nostart rfl (by simp)).elim
    | skipU e h => exact (nostart rfl (by simp)).elim
    | readyU h => exact (nostart rfl (by simp)).elim
    | failU h => exact (nostart rfl (by simp)).elim
    | flag s =>
      refine ⟨fun s' h => hl s' ?_, keep (Or.inl rfl), by simp⟩
      exact (Fewer.modify (fun v => { v with stop := true }) (fun _ => rfl) (fun _ _ => Or.inl rfl) _ rfl).live s' h
    | joined s v hv hh hp =>
      refine ⟨fun s' h => hl s' ?_, keep (Or.inl rfl), by simp⟩
      exact (Fewer.modify (fun v => { v with handle := false }) (fun _ => rfl)
          (fun u hu => by rw [hv, Option.some.injEq] at hu; subst hu; exact Or.inr (Or.inl hp)) _ rfl).live s' h
    | joinCrash s v hv hh hp =>
      refine ⟨fun s' h => hl s' ?_, keep (Or.inr rfl), by simp [Traffic]⟩
      exact (Fewer.modify (fun v => { v with handle := false }) (fun _ => rfl)
          (fun u hu => by rw [hv, Option.some.injEq] at hu; subst hu; exact Or.inr (Or.inr hp)) _ rfl).live s' h
    | noHandle s v hv hh => exact ⟨hl, keep (Or.inl rfl), by simp⟩
    | clearU => exact ⟨hl, keep (Or.inl rfl), by simp⟩
    | clearM => exact ⟨hl, keep (Or.inl rfl), by simp⟩
    | observe s o v hv hn hp =>
      refine ⟨fun s' h => hl s' ?_, keep (Or.inl rfl), by simp⟩
      exact (Fewer.modify (fun v => { v with observers := v.observers ++ [o] }) (fun _ => rfl) (fun _ _ => Or.inl rfl) _ rfl).live s' h
    | observeCrash s o v hv hn hp => exact ⟨hl, keep (Or.inr rfl), by simp [Traffic]⟩
    | ret r => exact ⟨hl, keep (Or.inr rfl), by simp [Traffic]⟩

/-- A step that makes an end has only that effect. -/
theorem stops_step {σ σ' : St} {w : Who} {evs : List Ev} (inv : StInv σ) (hs : Step σ w evs σ') {e : Ev} (he : e ∈ evs)
    (hst : Stops e) : evs = [e] ∧ (∀ s, ¬ LiveAt σ' s) ∧ σ'.caller = none ∧ σ'.ucast = [] ∧ σ'.mcast = [] := by
  cases hs with
  | thread s v v' _ hv hr =>
    cases hr <;> simp at he <;> subst he <;> exact hst.elim
  | invoke op hc => simp at he; subst he; exact hst.elim
  | caller op a as _ _ hcal hd =>
    cases hd <;> simp at he <;> subst he
    case ret r =>
      have hop : op = .stop ∨ (IsStart op ∧ r = false) := by
        cases op with
        | start _ _ => exact Or.inr ⟨trivial, hst⟩
        | stop => exact Or.inl rfl
        | addObserver _ => exact hst.elim
      obtain ⟨h1, h2, h3, _⟩ := inv.returns hcal hop
      exact ⟨rfl, h3, rfl, h1, h2⟩
    all_goals exact hst.elim

theorem silent_inv {tr : List Ev} {σ : St} (h : Runs tr σ) (p₁ p₂ : List Ev) (e : Ev) (htr : tr = p₁ ++ e :: p₂)
    (hst : Stops e) (hns : ∀ x ∈ p₂, ¬ Starts x) :
    (∀ s, ¬ LiveAt σ s) ∧ (∀ op acts, σ.caller = some ⟨op, acts⟩ → ¬ IsStart op) ∧ ∀ x ∈ p₂, ¬ Traffic x := by
  induction h generalizing p₂ with
  | new => simp at htr
  | @step tr σ σ' w evs h hs ih =>
    rcases split_append htr with ⟨s, h1⟩ | ⟨s, s', h1, h2⟩
    · have hp : p₂ = s ++ evs := by
        rw [h1] at htr
        simp only [List.append_assoc, List.cons_append, List.append_cancel_left_eq, List.cons.injEq, true_and] at htr
        exact htr.symm
      subst hp
      obtain ⟨g1, g2, g3⟩ := ih s h1 (fun x hx => hns x (by simp [hx]))
      obtain ⟨k1, k2, k3⟩ := idle_step (runs_inv h) g1 g2 hs (fun x hx => hns x (by simp [hx]))
      refine ⟨k1, k2, ?_⟩
      intro x hx
      rcases List.mem_append.mp hx with hx | hx
      · exact g3 x hx
      · exact k3 x hx
    · obtain ⟨k1, k2, k3, _, _⟩ := stops_step (runs_inv h) hs (by rw [h2]; simp) hst
      have hs : s = [] ∧ s' = [] := by
        rw [k1] at h2
        cases s with
        | nil => simp only [List.nil_append, List.cons.injEq] at h2; exact ⟨rfl, h2.2.symm⟩
        | cons _ s => simp at h2
      obtain ⟨rfl, rfl⟩ := hs
      have hp : p₂ = [] := by
        rw [List.append_nil] at h1
        rw [h1, k1] at htr
        simp only [List.append_cancel_left_eq, List.cons.injEq, true_and] at htr
        exact htr.symm
      subst hp
      refine ⟨k2, ?_, by simp⟩
      intro op acts hc; rw [k3] at hc; simp at hc

/-- C77: after `stop` has returned, or `start` has returned `false`, and until `start` is called again, nothing is
received and no observer is called, in any interleaving of the caller and the receiver threads. -/
theorem C77_silent (tr p₁ p₂ : List Ev) (σ : St) (e : Ev) (h : Runs tr σ) (htr : tr = p₁ ++ e :: p₂) (hst : Stops e)
    (hns : ∀ x ∈ p₂, ¬ Starts x) : ∀ x ∈ p₂, ¬ Traffic x := (silent_inv h p₁ p₂ e htr hst hns).2.2

/-- C77: `stop` never returns `false`. -/
theorem C77_result (tr : List Ev) (σ : St) (h : Runs tr σ) (r : Bool) (hr : Ev.returned .stop r ∈ tr) : r = true := by
  induction h with
  | new => simp at hr
  | step h hs ih =>
    rcases List.mem_append.mp hr with hr | hr
    · exact ih hr
    · cases hs with
      | thread s v v' _ hv hrec => cases hrec <;> simp at hr
      | invoke op hc => simp at hr
      | caller op a as _ _ hcal hd =>
        cases hd <;> simp at hr
        obtain ⟨rfl, rfl⟩ := hr
        exact ((runs_inv h).returns hcal (Or.inl rfl)).2.2.2 rfl

/-! ### `stop` comes to an end -/

/-- Steps a thread still takes at most once it has been told to stop. -/
def fuel (v : Srv) : Nat :=
  match v.pc with
  | .check => 1
  | .recv => 4 + v.observers.length
  | .handing _ => 3 + v.observers.length
  | .calling _ todo => 2 + todo.length
  | .finished => 0
  | .panicked => 0

def weight (σ : St) : Act → Nat
  | .join s => 5 + obsCount σ s
  | _ => 1

def weights (σ : St) (acts : List Act) : Nat := (acts.map (weight σ)).sum

def headWeight (σ : St) : Act → Nat
  | .join s => 1 + ((σ.srvs[s]?).map fuel).getD 0
  | _ => 1

/-- A bound on the helpful steps of a stopping call. -/
def effort (σ : St) : List Act → Nat
  | [] => 0
  | a :: as => headWeight σ a + weights σ as

structure TodoInv (σ : St) : Prop where
  todo : ∀ (s : Nat) v m l, σ.srvs[s]? = some v → v.pc = .calling m l → l.length ≤ v.observers.length
  flagged : ∀ op acts pre post s, σ.caller = some ⟨op, acts⟩ → acts = pre ++ .join s :: post →
    .flag s ∈ pre ∨ ∀ v, σ.srvs[s]? = some v → v.stop = true

theorem flatMap_join {l : List Nat} {pre post : List Act} {s : Nat}
    (h : l.flatMap (fun s => [Act.flag s, Act.join s]) = pre ++ .join s :: post) : .flag s ∈ pre := by
  induction l generalizing pre with
  | nil => simp at h
  | cons x l ih =>
    simp only [List.flatMap_cons, List.cons_append, List.nil_append] at h
    match pre, h with
    | [], h => simp at h
    | [a], h =>
      simp only [List.cons_append, List.nil_append, List.cons.injEq, Act.join.injEq] at h
      simp [← h.1, ← h.2.1]
    | a :: b :: pre, h =>
      simp only [List.cons_append, List.cons.injEq] at h
      have := ih h.2.2
      simp [this]

theorem stopActs_flagged {σ : St} {r : Bool} {pre post : List Act} {s : Nat} (h : σ.stopActs r = pre ++ .join s :: post) :
    .flag s ∈ pre := by
  unfold St.stopActs at h
  rcases split_append h with ⟨t, h1⟩ | ⟨t, t', h1, h2⟩
  · rcases split_append h1 with ⟨t, h1⟩ | ⟨t, t', h1, h2⟩
    · rcases split_append h1 with ⟨t, h1⟩ | ⟨t, t', h1, h2⟩
      · exact flatMap_join h1
      · have : Act.join s ∈ [Act.clearU] := by rw [h2]; simp
        simp at this
    · rw [h1]; exact List.mem_append_right _ (flatMap_join h2)
  · have : Act.join s ∈ [Act.clearM, Act.ret r] := by rw [h2]; simp
    simp at this

theorem recv_stop {s : Nat} {v v' : Srv} {evs : List Ev} (h : Recv s v evs v') :
    v'.stop = v.stop ∧ v'.observers = v.observers := by
  cases h with
  | got e hp => unfold Srv.received; split <;> exact ⟨rfl, rfl⟩
  | _ => exact ⟨rfl, rfl⟩

theorem recv_todo {s : Nat} {v v' : Srv} {evs : List Ev} (h : Recv s v evs v')
    (ht : ∀ m l, v.pc = .calling m l → l.length ≤ v.observers.length) :
    ∀ m l, v'.pc = .calling m l → l.length ≤ v'.observers.length := by
  intro m l hl
  cases h with
  | got e hp => exfalso; revert hl; unfold Srv.received; split <;> simp
  | lock m' hp hp' => simp only [Pc.calling.injEq] at hl; rw [← hl.2]; exact Nat.le_refl _
  | call m' o os hp =>
    simp only [Pc.calling.injEq] at hl
    have := ht _ _ hp
    rw [← hl.2]; simp only [List.length_cons] at this; show os.length ≤ v.observers.length; omega
  | exit _ _ => simp at hl
  | wait _ _ => simp at hl
  | lockPoisoned _ _ _ => simp at hl
  | die _ _ _ _ => simp at hl
  | next _ _ => simp at hl

/-- How a step changes the servers. -/
def Evolves (σ σ' : St) : Prop := ∀ (s : Nat) v', σ'.srvs[s]? = some v' →
  (∃ v, σ.srvs[s]? = some v ∧ (v.stop = true → v'.stop = true) ∧
    ((∀ m l, v.pc = .calling m l → l.length ≤ v.observers.length) →
      ∀ m l, v'.pc = .calling m l → l.length ≤ v'.observers.length)) ∨
  (σ.srvs.length ≤ s ∧ v'.pc = .check)

theorem Evolves.same {σ σ' : St} (h : σ'.srvs = σ.srvs) : Evolves σ σ' := by
  intro s v' hv'; rw [h] at hv'; exact Or.inl ⟨v', hv', id, id⟩

theorem Evolves.modify {σ σ' : St} {s : Nat} (f : Srv → Srv) (hp : ∀ v, (f v).pc = v.pc)
    (ho : ∀ v, v.observers.length ≤ (f v).observers.length) (hs : ∀ v, v.stop = true → (f v).stop = true)
    (h : σ'.srvs = σ.srvs.modify s f) : Evolves σ σ' := by
  intro s' v' hv'
  rw [h, List.getElem?_modify] at hv'
  obtain ⟨v, hv, rfl⟩ := Option.map_eq_some_iff.mp hv'
  refine Or.inl ⟨v, hv, ?_, ?_⟩
  · split
    · exact hs v
    · exact id
  · intro ht m l hl
    split at hl
    · simp only [*, if_true]
      rw [hp] at hl
      exact Nat.le_trans (ht m l hl) (ho v)
    · rename_i hne; simp only [if_neg hne]; exact ht m l hl

theorem step_evolves {σ σ' : St} {w : Who} {evs : List Ev} (hs : Step σ w evs σ') : Evolves σ σ' := by
  cases hs with
  | thread s v v' _ hv hr =>
    intro s' u hu
    rw [List.getElem?_set] at hu
    split at hu
    · rename_i he; subst he
      split at hu
      · simp only [Option.some.injEq] at hu; subst hu
        exact Or.inl ⟨v, hv, by rw [(recv_stop hr).1]; exact id, recv_todo hr⟩
      · simp at hu
    · exact Or.inl ⟨u, hu, id, id⟩
  | invoke op hc => exact .same rfl
  | caller op a as _ _ hc hd =>
    have app : ∀ {τ : St} (ip : IpAddr), τ.srvs = σ.srvs ++ [Srv.spawned ip] → Evolves σ τ := by
      intro τ ip h s v' hv'
      rw [h, List.getElem?_append] at hv'
      split at hv'
      · exact Or.inl ⟨v', hv', id, id⟩
      · rename_i hlt
        have := (List.getElem?_eq_some_iff.mp hv')
        obtain ⟨h1, h2⟩ := this
        have : s - σ.srvs.length = 0 := by simp at h1; omega
        simp only [this, List.getElem_cons_zero] at h2
        exact Or.inr ⟨by omega, by rw [← h2]; rfl⟩
    cases hd with
    | spawnM e h => exact app e.addr rfl
    | spawnU e h => exact app e.addr rfl
    | flag s => exact .modify (s := s) (fun v => { v with stop := true }) (fun _ => rfl) (fun _ => Nat.le_refl _) (fun _ _ => rfl) rfl
    | joined s v hv hh hp =>
      exact .modify (s := s) (fun v => { v with handle := false }) (fun _ => rfl) (fun _ => Nat.le_refl _) (fun _ h => h) rfl
    | joinCrash s v hv hh hp =>
      exact .modify (s := s) (fun v => { v with handle := false }) (fun _ => rfl) (fun _ => Nat.le_refl _) (fun _ h => h) rfl
    | observe s o v hv hn hp =>
      exact .modify (s := s) (fun v => { v with observers := v.observers ++ [o] }) (fun _ => rfl) (fun _ => by simp) (fun _ h => h) rfl
    | _ => exact .same rfl

theorem TodoInv.step {σ σ' : St} {w : Who} {evs : List Ev} (sinv : StInv σ) (inv : TodoInv σ) (hs : Step σ w evs σ') :
    TodoInv σ' := by
  have ev := step_evolves hs
  have sinv' := sinv.step hs
  refine ⟨?_, ?_⟩
  · intro s v' m l hv' hp
    rcases ev s v' hv' with ⟨v, hv, _, ht⟩ | ⟨_, h⟩
    · exact ht (fun m l h => inv.todo s v m l hv h) m l hp
    · rw [h] at hp; simp at hp
  · -- a job that had this list of steps (or one more) before
    have old : ∀ op acts a pre post s, σ.caller = some ⟨op, a :: acts⟩ → acts = pre ++ .join s :: post → a ≠ .flag s →
        .flag s ∈ pre ∨ ∀ v, σ'.srvs[s]? = some v → v.stop = true := by
      intro op acts a pre post s hc ha hne
      have hlt : s < σ.srvs.length := by
        cases sinv.job _ _ hc with
        | starting ho h => have := h (.join s) (by rw [ha]; simp); simp at this
        | stopping h _ => exact h.ids s (Or.inr (by rw [ha]; simp))
        | observing o ho h => have := h (.join s) (by rw [ha]; simp); simp at this
      rcases inv.flagged op _ (a :: pre) post s hc (by rw [ha]; rfl) with h | h
      · simp only [List.mem_cons] at h
        rcases h with h | h
        · exact (hne h.symm).elim
        · exact Or.inl h
      · right
        intro v' hv'
        rcases ev s v' hv' with ⟨v, hv, hst, _⟩ | ⟨h', _⟩
        · exact hst (h v hv)
        · omega
    intro op acts pre post s hc ha
    cases hs with
    | thread t v v' _ hv hr =>
      rcases inv.flagged op acts pre post s hc ha with h | h
      · exact Or.inl h
      · right
        intro u hu
        rcases ev s u hu with ⟨w, hw, hst, _⟩ | ⟨h', _⟩
        · exact hst (h w hw)
        · have : s < (σ.srvs.set t v').length := (List.getElem?_eq_some_iff.mp hu).1
          simp at this; omega
    | invoke op' hc' =>
      simp only [Option.some.injEq, Job.mk.injEq] at hc
      obtain ⟨rfl, rfl⟩ := hc
      have hj := sinv'.job _ _ rfl
      cases op' with
      | start menv uenv =>
        exfalso
        cases hj with
        | starting ho h => have := h (.join s) (by rw [ha]; simp); simp at this
        | stopping h ho =>
          obtain ⟨l, r, h1, _, h3⟩ := h.shape
          have hmem : Act.join s ∈ σ.actsOf (.start menv uenv) := by rw [ha]; simp
          simp only [St.actsOf] at hmem
          split at hmem
          · simp at hmem
          · simp only [List.mem_append, List.mem_cons, List.not_mem_nil, or_false, reduceCtorEq] at hmem
            rcases hmem with hmem | hmem <;> split at hmem <;> simp at hmem
        | observing o ho h => simp at ho
      | stop => exact Or.inl (stopActs_flagged ha)
      | addObserver o =>
        exfalso
        have hmem : Act.join s ∈ σ.actsOf (.addObserver o) := by rw [ha]; simp
        simp [St.actsOf] at hmem
    | caller op' a as _ _ hcal hd =>
      have stopFail : op' = op → σ.stopActs false = acts → .flag s ∈ pre := by
        intro _ h; rw [← h] at ha; exact stopActs_flagged ha
      cases hd with
      | failM h =>
        simp only [Option.some.injEq, Job.mk.injEq] at hc
        exact Or.inl (stopFail hc.1 hc.2)
      | failU h =>
        simp only [Option.some.injEq, Job.mk.injEq] at hc
        exact Or.inl (stopFail hc.1 hc.2)
      | crashM e h => simp at hc
      | joinCrash s v hv hh hp => simp at hc
      | observeCrash s o v hv hn hp => simp at hc
      | ret r => simp at hc
      | flag t =>
        simp only [Option.some.injEq, Job.mk.injEq] at hc
        obtain ⟨rfl, rfl⟩ := hc
        by_cases hts : t = s
        · subst hts
          right
          intro v hv
          simp only [St.modify, List.getElem?_modify, if_true] at hv
          obtain ⟨u, _, rfl⟩ := Option.map_eq_some_iff.mp hv
          rfl
        · exact old _ _ _ pre post s hcal ha (by simp [hts])
      | _ =>
        simp only [Option.some.injEq, Job.mk.injEq] at hc
        obtain ⟨rfl, rfl⟩ := hc
        exact old _ _ _ pre post s hcal ha (by simp)

theorem runs_todo {tr : List Ev} {σ : St} (h : Runs tr σ) : TodoInv σ := by
  induction h with
  | new =>
    refine ⟨?_, ?_⟩
    · intro s v m l hv; simp [St.new] at hv
    · intro op acts pre post s hc; simp [St.new] at hc
  | step h hs ih => exact ih.step (runs_inv h) hs

theorem weights_eq {σ σ' : St} (h : ∀ s, obsCount σ' s = obsCount σ s) (acts : List Act) : weights σ' acts = weights σ acts := by
  have : weight σ' = weight σ := by
    funext a
    cases a <;> simp only [weight, h]
  unfold weights
  rw [this]

theorem effort_le {σ : St} (inv : TodoInv σ) (acts : List Act) : effort σ acts ≤ weights σ acts := by
  cases acts with
  | nil => exact Nat.le_refl _
  | cons a as =>
    simp only [effort, weights, List.map_cons, List.sum_cons]
    have : headWeight σ a ≤ weight σ a := by
      cases a with
      | join s =>
        simp only [headWeight, weight, obsCount]
        cases hv : σ.srvs[s]? with
        | none => simp
        | some v =>
          simp only [Option.map_some, Option.getD_some]
          unfold fuel
          split
          · omega
          · omega
          · omega
          · rename_i m l hp
            have := inv.todo s v m l hv hp
            omega
          · omega
          · omega
      | _ => simp [headWeight, weight]
    omega

theorem recv_fuel {s : Nat} {v v' : Srv} {evs : List Ev} (h : Recv s v evs v') (hst : v.stop = true) : fuel v' < fuel v := by
  cases h with
  | exit hp hf => simp [fuel, hp]
  | wait hp hf => rw [hst] at hf; simp at hf
  | got e hp =>
    unfold Srv.received
    split <;> simp [fuel, hp] <;> omega
  | lock m hp hl => simp [fuel, hp]
  | lockPoisoned m hp hl => simp [fuel, hp]; omega
  | call m o os hp => simp [fuel, hp]
  | die m o os hp => simp [fuel, hp]; omega
  | next m hp => simp [fuel, hp]

theorem obsCount_set {σ σ' : St} {t : Nat} {v v' : Srv} (hv : σ.srvs[t]? = some v) (ho : v'.observers = v.observers)
    (h : σ'.srvs = σ.srvs.set t v') (s : Nat) : obsCount σ' s = obsCount σ s := by
  unfold obsCount
  rw [h, List.getElem?_set]
  split
  · rename_i he; subst he
    rw [hv]
    have := (List.getElem?_eq_some_iff.mp hv).1
    simp [this, ho]
  · rfl

theorem obsCount_modify {σ σ' : St} {t : Nat} (f : Srv → Srv) (ho : ∀ v, (f v).observers = v.observers)
    (h : σ'.srvs = σ.srvs.modify t f) (s : Nat) : obsCount σ' s = obsCount σ s := by
  unfold obsCount
  rw [h, List.getElem?_modify]
  cases σ.srvs[s]? with
  | none => rfl
  | some v =>
    simp only [Option.map_eq_map, Option.map_some, Option.getD_some]
    split <;> simp [ho]

/-- One step during `stop`: the effort left does not grow, and a helpful step makes it smaller. -/
theorem stop_step {σ σ' : St} {w : Who} {evs : List Ev} (sinv : StInv σ) (inv : TodoInv σ) (hs : Step σ w evs σ')
    {acts : List Act} (hc : σ.caller = some ⟨.stop, acts⟩) (hn : σ'.caller ≠ none) :
    ∃ acts', σ'.caller = some ⟨.stop, acts'⟩ ∧ effort σ' acts' ≤ effort σ acts ∧
      (Helpful σ w → effort σ' acts' < effort σ acts) := by
  cases hs with
  | thread t v v' _ hv hr =>
    have hobs := obsCount_set (σ' := { σ with srvs := σ.srvs.set t v' }) hv (recv_stop hr).2 rfl
    refine ⟨acts, hc, ?_⟩
    cases acts with
    | nil =>
      refine ⟨Nat.le_refl _, ?_⟩
      rintro (h | ⟨s, h, op, as, h'⟩)
      · simp at h
      · rw [hc] at h'; simp at h'
    | cons a as =>
      simp only [effort]
      rw [weights_eq hobs]
      cases a with
      | join s =>
        have hlt : t < σ.srvs.length := (List.getElem?_eq_some_iff.mp hv).1
        simp only [headWeight, List.getElem?_set]
        by_cases he : t = s
        · subst he
          have hst : v.stop = true := by
            rcases inv.flagged _ _ [] as t hc rfl with h | h
            · simp at h
            · exact h v hv
          have := recv_fuel hr hst
          rw [hv]
          simp only [if_true, hlt, Option.map_some, Option.getD_some]
          exact ⟨by omega, fun _ => by omega⟩
        · simp only [he, if_false]
          refine ⟨Nat.le_refl _, ?_⟩
          rintro (h | ⟨s', h, op, as', h'⟩)
          · simp at h
          · rw [hc] at h'
            simp only [Who.thread.injEq] at h
            simp only [Option.some.injEq, Job.mk.injEq, List.cons.injEq, Act.join.injEq] at h'
            omega
      | _ =>
        refine ⟨Nat.le_refl _, ?_⟩
        rintro (h | ⟨s', h, op, as', h'⟩)
        · simp at h
        · rw [hc] at h'; simp at h'
  | invoke op hc' => rw [hc] at hc'; simp at hc'
  | caller op a as _ _ hcal hd =>
    have hinv' : TodoInv σ' := inv.step sinv (.caller op a as _ _ hcal hd)
    rw [hc] at hcal
    simp only [Option.some.injEq, Job.mk.injEq] at hcal
    obtain ⟨rfl, rfl⟩ := hcal
    have key : σ'.caller = some ⟨.stop, as⟩ → (∀ s, obsCount σ' s = obsCount σ s) →
        ∃ acts', σ'.caller = some ⟨.stop, acts'⟩ ∧ effort σ' acts' ≤ effort σ (a :: as) ∧
          (Helpful σ .caller → effort σ' acts' < effort σ (a :: as)) := by
      intro h1 h2
      have h3 := effort_le hinv' as
      rw [weights_eq h2] at h3
      have h4 : 1 ≤ headWeight σ a := by cases a <;> simp [headWeight]
      have h5 : effort σ (a :: as) = headWeight σ a + weights σ as := rfl
      exact ⟨as, h1, by omega, fun _ => by omega⟩
    have hhead : (∃ s, a = .flag s) ∨ (∃ s, a = .join s) ∨ a = .clearU ∨ a = .clearM ∨ (as = [] ∧ ∃ r, a = .ret r ∧ (MOp.stop = .stop → r = true)) := by
      cases sinv.job _ _ hc with
      | starting ho h => exact ho.elim
      | stopping h _ => exact h.head
      | observing o ho h => simp at ho
    cases hd with
    | flag s => exact key rfl (obsCount_modify (t := s) (fun v => { v with stop := true }) (fun _ => rfl) rfl)
    | joined s v hv hh hp => exact key rfl (obsCount_modify (t := s) (fun v => { v with handle := false }) (fun _ => rfl) rfl)
    | noHandle s v hv hh => exact key rfl (fun _ => rfl)
    | clearU => exact key rfl (fun _ => rfl)
    | clearM => exact key rfl (fun _ => rfl)
    | joinCrash s v hv hh hp => exact (hn rfl).elim
    | ret r => exact (hn rfl).elim
    | spawnM e h => simp at hhead
    | skipM e h => simp at hhead
    | crashM e h => simp at hhead
    | readyM h => simp at hhead
    | failM h => simp at hhead
    | spawnU e h => simp at hhead
    | skipU e h => simp at hhead
    | readyU h => simp at hhead
    | failU h => simp at hhead
    | observe s o v hv hn hp => simp at hhead
    | observeCrash s o v hv hn hp => simp at hhead

theorem during_bound {σ σ' : St} {k : Nat} (h : During σ k σ') (sinv : StInv σ) (inv : TodoInv σ) {acts : List Act}
    (hc : σ.caller = some ⟨.stop, acts⟩) : k ≤ effort σ acts := by
  induction h generalizing acts with
  | refl σ => exact Nat.zero_le _
  | helpful hs hw hn _ ih =>
    obtain ⟨acts', h1, _, h2⟩ := stop_step sinv inv hs hc hn
    have := ih (sinv.step hs) (inv.step sinv hs) h1
    have := h2 hw
    omega
  | other hs hw hn _ ih =>
    obtain ⟨acts', h1, h2, _⟩ := stop_step sinv inv hs hc hn
    have := ih (sinv.step hs) (inv.step sinv hs) h1
    omega

/-- C77: `stop` ends: from its beginning on, the caller and the threads it waits for take a bounded number of steps
before it does, whatever the others do; per server, six steps and one per observer. -/
theorem C77_stop_bounded (tr : List Ev) (σ σ₁ σ' : St) (evs : List Ev) (k : Nat) (h : Runs tr σ) (hi : evs = [.invoked .stop])
    (hs : Step σ .app evs σ₁) (hd : During σ₁ k σ') :
    k ≤ 3 + ((σ.ucast ++ σ.mcast).map (fun s => 6 + obsCount σ s)).sum := by
  have hr := Runs.step h hs
  cases hs with
  | invoke op hc =>
    simp only [List.cons.injEq, Ev.invoked.injEq, and_true] at hi
    subst hi
    have hb := during_bound hd (runs_inv hr) (runs_todo hr) rfl
    have hw := effort_le (runs_todo hr) (σ.actsOf .stop)
    have hsum : ∀ l : List Nat, ((l.flatMap (fun s => [Act.flag s, Act.join s])).map (weight σ)).sum =
        (l.map (fun s => 6 + obsCount σ s)).sum := by
      intro l
      induction l with
      | nil => rfl
      | cons s l ih => simp [weight, ih]; omega
    have hw1 : weights { σ with caller := some ⟨.stop, σ.actsOf .stop⟩ } (σ.actsOf .stop) = weights σ (σ.actsOf .stop) :=
      weights_eq (fun _ => rfl) _
    have hw2 : weights σ (σ.actsOf .stop) = 3 + ((σ.ucast ++ σ.mcast).map (fun s => 6 + obsCount σ s)).sum := by
      simp only [St.actsOf, St.stopActs, weights, List.map_append, List.sum_append, hsum, List.map_cons, List.map_nil,
        List.sum_cons, List.sum_nil, weight]
      omega
    omega

/-- C77: and as long as `stop` has not ended, the caller or the thread it waits for can take a step (when `recv_from`
returns, at the latest with a time-out). -/
theorem C77_stop_progress (tr : List Ev) (σ : St) (acts : List Act) (h : Runs tr σ) (hc : σ.caller = some ⟨.stop, acts⟩) :
    ∃ w evs σ', Step σ w evs σ' ∧ Helpful σ w := by
  have inv := runs_inv h
  have hst : Stopping σ .stop acts := by
    cases inv.job _ _ hc with
    | starting ho h => exact ho.elim
    | stopping h _ => exact h
    | observing o ho h => simp at ho
  cases acts with
  | nil => obtain ⟨l, r, h1, _⟩ := hst.shape; simp at h1
  | cons a as =>
    rcases hst.head with ⟨s, rfl⟩ | ⟨s, rfl⟩ | rfl | rfl | ⟨_, r, rfl, _⟩
    · exact ⟨_, _, _, .caller _ _ _ _ _ hc (.flag s), Or.inl rfl⟩
    · have hlt := hst.ids s (Or.inr (by simp))
      have hv : σ.srvs[s]? = some σ.srvs[s] := List.getElem?_eq_getElem hlt
      generalize σ.srvs[s] = v at hv
      have wait : Helpful σ (.thread s) := Or.inr ⟨s, rfl, _, _, hc⟩
      cases hh : v.handle with
      | false => exact ⟨_, _, _, .caller _ _ _ _ _ hc (.noHandle s v hv hh), Or.inl rfl⟩
      | true =>
        cases hp : v.pc with
        | finished => exact ⟨_, _, _, .caller _ _ _ _ _ hc (.joined s v hv hh hp), Or.inl rfl⟩
        | panicked => exact ⟨_, _, _, .caller _ _ _ _ _ hc (.joinCrash s v hv hh hp), Or.inl rfl⟩
        | check =>
          cases hf : v.stop with
          | true => exact ⟨_, _, _, .thread s v _ _ hv (.exit hp hf), wait⟩
          | false => exact ⟨_, _, _, .thread s v _ _ hv (.wait hp hf), wait⟩
        | recv => exact ⟨_, _, _, .thread s v _ _ hv (.got .timeout hp), wait⟩
        | handing m =>
          cases hl : v.poisoned with
          | true => exact ⟨_, _, _, .thread s v _ _ hv (.lockPoisoned m hp hl), wait⟩
          | false => exact ⟨_, _, _, .thread s v _ _ hv (.lock m hp hl), wait⟩
        | calling m todo =>
          cases todo with
          | nil => exact ⟨_, _, _, .thread s v _ _ hv (.next m hp), wait⟩
          | cons o os => exact ⟨_, _, _, .thread s v _ _ hv (.call m o os hp), wait⟩
    · exact ⟨_, _, _, .caller _ _ _ _ _ hc .clearU, Or.inl rfl⟩
    · exact ⟨_, _, _, .caller _ _ _ _ _ hc .clearM, Or.inl rfl⟩
    · exact ⟨_, _, _, .caller _ _ _ _ _ hc (.ret r), Or.inl rfl⟩

/-- A thread that has panicked stays so. -/
theorem panicked_stays {σ σ' : St} {w : Who} {evs : List Ev} (hs : Step σ w evs σ') (s : Nat) (v : Srv)
    (hv : σ.srvs[s]? = some v) (hp : v.pc = .panicked) : ∃ v', σ'.srvs[s]? = some v' ∧ v'.pc = .panicked := by
  have hlt : s < σ.srvs.length := (List.getElem?_eq_some_iff.mp hv).1
  have md : ∀ {τ : St} {t : Nat} (f : Srv → Srv), (∀ v, (f v).pc = v.pc) → τ.srvs = σ.srvs.modify t f →
      ∃ v', τ.srvs[s]? = some v' ∧ v'.pc = .panicked := by
    intro τ t f hf h
    rw [h, List.getElem?_modify, hv]
    refine ⟨_, rfl, ?_⟩
    split
    · rw [hf]; exact hp
    · exact hp
  cases hs with
  | thread t u u' _ hu hr =>
    refine ⟨v, ?_, hp⟩
    rw [List.getElem?_set, if_neg ?_]
    · exact hv
    · intro he
      subst he
      rw [hv, Option.some.injEq] at hu
      subst hu
      exact (recv_dead hr).1 (Or.inr hp)
  | invoke op hc => exact ⟨v, hv, hp⟩
  | caller op a as _ _ hcal hd =>
    cases hd with
    | spawnM e h => exact ⟨v, by simp only [List.getElem?_append_left hlt]; exact hv, hp⟩
    | spawnU e h => exact ⟨v, by simp only [List.getElem?_append_left hlt]; exact hv, hp⟩
    | flag t => exact md (t := t) (fun v => { v with stop := true }) (fun _ => rfl) rfl
    | joined t u hu hh hp => exact md (t := t) (fun v => { v with handle := false }) (fun _ => rfl) rfl
    | joinCrash t u hu hh hp => exact md (t := t) (fun v => { v with handle := false }) (fun _ => rfl) rfl
    | observe t o u hu hn hp => exact md (t := t) (fun v => { v with observers := v.observers ++ [o] }) (fun _ => rfl) rfl
    | _ => exact ⟨v, hv, hp⟩

/-- C77: `stop` panics only if a receiver thread has panicked. -/
theorem C77_panics_only (tr : List Ev) (σ : St) (h : Runs tr σ) (hc : Ev.crashed .stop ∈ tr) :
    ∃ (s : Nat) (v : Srv), σ.srvs[s]? = some v ∧ v.pc = .panicked := by
  induction h with
  | new => simp at hc
  | @step tr σ σ' w evs h hs ih =>
    rcases List.mem_append.mp hc with hc | hc
    · obtain ⟨s, v, hv, hp⟩ := ih hc
      obtain ⟨v', hv', hp'⟩ := panicked_stays hs s v hv hp
      exact ⟨s, v', hv', hp'⟩
    · cases hs with
      | thread s v v' _ hv hrec => cases hrec <;> simp at hc
      | invoke op hc => simp at hc
      | caller op a as _ _ hcal hd =>
        have hj := (runs_inv h).job _ _ hcal
        cases hd <;> simp at hc
        case crashM e he =>
          subst hc
          cases hj with
          | starting ho _ => exact ho.elim
          | stopping h _ => have := h.head; simp at this
          | observing o ho _ => simp at ho
        case observeCrash s o v hv hn hp =>
          subst hc
          cases hj with
          | starting ho _ => exact ho.elim
          | stopping h _ => have := h.head; simp at this
          | observing o ho _ => simp at ho
        case joinCrash =>
          rename_i s v hv hh hp _
          exact ⟨s, { v with handle := false }, by simp [St.modify, hv], hp⟩

/-! ## C78 -/

theorem recvLoop_snoc {es : List SocketEvent} {ms : List Message} (h : recvLoop es = (ms, .running)) (e : SocketEvent) :
    recvLoop (es ++ [e]) = (ms ++ (recvLoop [e]).1, (recvLoop [e]).2) := by
  induction es generalizing ms with
  | nil =>
    simp only [recvLoop, Prod.mk.injEq] at h
    rw [← h.1]; simp
  | cons x es ih =>
    cases x with
    | timeout => simp only [List.cons_append, recvLoop] at h ⊢; exact ih h
    | error => simp [recvLoop] at h
    | datagram bytes src =>
      simp only [List.cons_append]
      rw [recvLoop] at h ⊢
      cases hp : Message.parse Message.new (bytes.take maxPacketSize) with
      | panic => rw [hp] at h; simp at h
      | ok r =>
        obtain ⟨b, m⟩ := r
        rw [hp] at h
        cases b with
        | false => simp only [] at h ⊢; exact ih h
        | true =>
          simp only [Prod.mk.injEq] at h ⊢
          have := ih (ms := (recvLoop es).1) (Prod.ext rfl h.2)
          rw [this, ← h.1]
          simp

/-- What is owed to the observers for the messages notified. -/
def owedCalls (l : List (Message × List ObserverRef)) : List (ObserverRef × Message) :=
  l.flatMap (fun x => x.2.map (fun o => (o, x.1)))

/-- How the history of a server and the state of its thread fit together. -/
def ThreadInv (tr : List Ev) (s : Nat) (v : Srv) : Prop :=
  let ms := (notifiedOn s tr).map (fun x => x.1)
  match v.pc with
  | .check => recvLoop (receivedOn s tr) = (ms, .running) ∧ callsOn s tr = owedCalls (notifiedOn s tr)
  | .recv => recvLoop (receivedOn s tr) = (ms, .running) ∧ callsOn s tr = owedCalls (notifiedOn s tr)
  | .handing m => recvLoop (receivedOn s tr) = (ms ++ [m], .running) ∧ callsOn s tr = owedCalls (notifiedOn s tr)
  | .calling m todo => recvLoop (receivedOn s tr) = (ms, .running) ∧
      callsOn s tr ++ todo.map (fun o => (o, m)) = owedCalls (notifiedOn s tr)
  | .finished => (recvLoop (receivedOn s tr)).1 = ms ∧ callsOn s tr = owedCalls (notifiedOn s tr)
  | .panicked => ms <+: (recvLoop (receivedOn s tr)).1 ∧ callsOn s tr <+: owedCalls (notifiedOn s tr)

/-- Nothing happened on servers that do not exist yet. -/
def HistInv (tr : List Ev) (σ : St) : Prop :=
  (∀ (s : Nat) v, σ.srvs[s]? = some v → ThreadInv tr s v) ∧
  ∀ s, σ.srvs.length ≤ s → receivedOn s tr = [] ∧ notifiedOn s tr = [] ∧ callsOn s tr = []

theorem on_append (s : Nat) (a b : List Ev) : receivedOn s (a ++ b) = receivedOn s a ++ receivedOn s b ∧
    notifiedOn s (a ++ b) = notifiedOn s a ++ notifiedOn s b ∧ callsOn s (a ++ b) = callsOn s a ++ callsOn s b := by
  simp [receivedOn, notifiedOn, callsOn]

theorem owedCalls_append (a b : List (Message × List ObserverRef)) : owedCalls (a ++ b) = owedCalls a ++ owedCalls b := by
  simp [owedCalls]

theorem recv_hist {s : Nat} {v v' : Srv} {evs tr : List Ev} (h : Recv s v evs v') (inv : ThreadInv tr s v) :
    ThreadInv (tr ++ evs) s v' ∧
    ∀ s', s' ≠ s → receivedOn s' evs = [] ∧ notifiedOn s' evs = [] ∧ callsOn s' evs = [] := by
  obtain ⟨a1, a2, a3⟩ := on_append s tr evs
  unfold ThreadInv at inv ⊢
  rw [a1, a2, a3]
  cases h with
  | exit hp hf =>
    rw [hp] at inv
    simp only [receivedOn, notifiedOn, callsOn, List.filterMap_nil, List.append_nil] at inv ⊢
    exact ⟨⟨by rw [inv.1], inv.2⟩, by simp⟩
  | wait hp hf =>
    rw [hp] at inv
    simp only [receivedOn, notifiedOn, callsOn, List.filterMap_nil, List.append_nil] at inv ⊢
    exact ⟨inv, by simp⟩
  | got e hp =>
    rw [hp] at inv
    have r1 : receivedOn s [Ev.received s e] = [e] := by simp [receivedOn]
    have r2 : notifiedOn s [Ev.received s e] = [] := rfl
    have r3 : callsOn s [Ev.received s e] = [] := rfl
    rw [r1, r2, r3, List.append_nil, List.append_nil]
    simp only [] at inv
    refine ⟨?_, ?_⟩
    · rw [recvLoop_snoc inv.1 e]
      unfold Srv.received
      cases he : recvLoop [e] with
      | mk l en =>
        cases l with
        | cons m l =>
          have hl : l = [] ∧ en = .running := by
            cases e with
            | timeout => simp [recvLoop] at he
            | error => simp [recvLoop] at he
            | datagram bytes src =>
              rcases recvOne bytes src with ⟨m', e', h1, _⟩ | h1 | h1
              · rw [recvLoop] at he
                split at he
                · simp at he
                · simp [recvLoop] at he
                · simp only [recvLoop, Prod.mk.injEq, List.cons.injEq] at he
                  exact ⟨he.1.2.symm, he.2.symm⟩
              · rw [h1] at he; simp at he
              · rw [h1] at he; simp at he
          simp only [hl.1, hl.2]
          exact ⟨trivial, inv.2⟩
        | nil =>
          cases en with
          | running => simp only [List.append_nil]; exact ⟨trivial, inv.2⟩
          | ended => simp only [List.append_nil]; exact ⟨trivial, inv.2⟩
          | panicked => simp only [List.append_nil]; exact ⟨List.prefix_refl _, by rw [inv.2]; exact List.prefix_refl _⟩
    · intro s' hs'
      refine ⟨?_, rfl, rfl⟩
      simp [receivedOn, Ne.symm hs']
  | lock m hp hl =>
    rw [hp] at inv
    have r1 : receivedOn s [Ev.notify s m v.observers] = [] := rfl
    have r2 : notifiedOn s [Ev.notify s m v.observers] = [(m, v.observers)] := by simp [notifiedOn]
    have r3 : callsOn s [Ev.notify s m v.observers] = [] := rfl
    rw [r1, r2, r3, List.append_nil, List.append_nil, owedCalls_append, List.map_append]
    refine ⟨⟨inv.1, ?_⟩, ?_⟩
    · simp only [inv.2]
      simp [owedCalls]
    · intro s' hs'
      refine ⟨rfl, ?_, rfl⟩
      simp [notifiedOn, Ne.symm hs']
  | lockPoisoned m hp hl =>
    rw [hp] at inv
    simp only [receivedOn, notifiedOn, callsOn, List.filterMap_nil, List.append_nil] at inv ⊢
    refine ⟨⟨?_, ?_⟩, by simp⟩
    · rw [inv.1]; exact List.prefix_append _ _
    · rw [inv.2]; exact List.prefix_refl _
  | call m o os hp =>
    rw [hp] at inv
    have r1 : receivedOn s [Ev.called s o m] = [] := rfl
    have r2 : notifiedOn s [Ev.called s o m] = [] := rfl
    have r3 : callsOn s [Ev.called s o m] = [(o, m)] := by simp [callsOn]
    rw [r1, r2, r3, List.append_nil, List.append_nil]
    refine ⟨⟨inv.1, ?_⟩, ?_⟩
    · rw [← inv.2]; simp
    · intro s' hs'
      refine ⟨rfl, rfl, ?_⟩
      simp [callsOn, Ne.symm hs']
  | die m o os hp =>
    rw [hp] at inv
    have r1 : receivedOn s [Ev.called s o m] = [] := rfl
    have r2 : notifiedOn s [Ev.called s o m] = [] := rfl
    have r3 : callsOn s [Ev.called s o m] = [(o, m)] := by simp [callsOn]
    rw [r1, r2, r3, List.append_nil, List.append_nil]
    refine ⟨⟨by rw [inv.1]; exact List.prefix_refl _, ?_⟩, ?_⟩
    · rw [← inv.2]
      exact ⟨os.map (fun o => (o, m)), by simp⟩
    · intro s' hs'
      refine ⟨rfl, rfl, ?_⟩
      simp [callsOn, Ne.symm hs']
  | next m hp =>
    rw [hp] at inv
    simp only [receivedOn, notifiedOn, callsOn, List.filterMap_nil, List.append_nil, List.map_nil] at inv ⊢
    exact ⟨inv, by simp⟩

theorem threadInv_of_on {tr tr' : List Ev} {s : Nat} {v v' : Srv} (hp : v'.pc = v.pc)
    (h1 : receivedOn s tr' = receivedOn s tr) (h2 : notifiedOn s tr' = notifiedOn s tr) (h3 : callsOn s tr' = callsOn s tr)
    (h : ThreadInv tr s v) : ThreadInv tr' s v' := by
  unfold ThreadInv at h ⊢
  rw [hp, h1, h2, h3]; exact h

theorem hist_step {tr evs : List Ev} {σ σ' : St} {w : Who} (inv : HistInv tr σ) (hs : Step σ w evs σ') : HistInv (tr ++ evs) σ' := by
  have quiet : ∀ {τ : St}, (∀ s, receivedOn s evs = [] ∧ notifiedOn s evs = [] ∧ callsOn s evs = []) →
      σ.srvs.length ≤ τ.srvs.length →
      (∀ (s : Nat) v', τ.srvs[s]? = some v' → (∃ v, σ.srvs[s]? = some v ∧ v'.pc = v.pc) ∨ (σ.srvs.length ≤ s ∧ v'.pc = .check)) →
      HistInv (tr ++ evs) τ := by
    intro τ he hlen h
    refine ⟨?_, ?_⟩
    · intro s v' hv'
      obtain ⟨a1, a2, a3⟩ := on_append s tr evs
      obtain ⟨e1, e2, e3⟩ := he s
      rw [e1, List.append_nil] at a1
      rw [e2, List.append_nil] at a2
      rw [e3, List.append_nil] at a3
      rcases h s v' hv' with ⟨v, hv, hp⟩ | ⟨hlt, hp⟩
      · exact threadInv_of_on hp a1 a2 a3 (inv.1 s v hv)
      · obtain ⟨b1, b2, b3⟩ := inv.2 s hlt
        unfold ThreadInv
        rw [hp, a1, a2, a3, b1, b2, b3]
        exact ⟨rfl, rfl⟩
    · intro s hlt
      obtain ⟨a1, a2, a3⟩ := on_append s tr evs
      obtain ⟨e1, e2, e3⟩ := he s
      obtain ⟨b1, b2, b3⟩ := inv.2 s (by omega)
      rw [a1, a2, a3, e1, e2, e3, b1, b2, b3]
      exact ⟨rfl, rfl, rfl⟩
  cases hs with
  | thread t v v' _ hv hr =>
    have hlt : t < σ.srvs.length := (List.getElem?_eq_some_iff.mp hv).1
    obtain ⟨h1, h2⟩ := recv_hist hr (inv.1 t v hv)
    refine ⟨?_, ?_⟩
    · intro s u hu
      rw [List.getElem?_set] at hu
      split at hu
      · rename_i he; subst he
        simp only [hlt, if_true, Option.some.injEq] at hu
        subst hu; exact h1
      · rename_i hne
        obtain ⟨a1, a2, a3⟩ := on_append s tr evs
        obtain ⟨e1, e2, e3⟩ := h2 s (Ne.symm hne)
        exact threadInv_of_on rfl (by rw [a1, e1, List.append_nil]) (by rw [a2, e2, List.append_nil])
          (by rw [a3, e3, List.append_nil]) (inv.1 s u hu)
    · intro s hs
      simp only [List.length_set] at hs
      obtain ⟨a1, a2, a3⟩ := on_append s tr evs
      obtain ⟨e1, e2, e3⟩ := h2 s (by omega)
      obtain ⟨b1, b2, b3⟩ := inv.2 s hs
      rw [a1, a2, a3, e1, e2, e3, b1, b2, b3]
      exact ⟨rfl, rfl, rfl⟩
  | invoke op hc => exact quiet (fun s => ⟨rfl, rfl, rfl⟩) (Nat.le_refl _) (fun s v hv => Or.inl ⟨v, hv, rfl⟩)
  | caller op a as _ _ hcal hd =>
    have same : ∀ {τ : St}, τ.srvs = σ.srvs → (∀ s, receivedOn s evs = [] ∧ notifiedOn s evs = [] ∧ callsOn s evs = []) →
        HistInv (tr ++ evs) τ := by
      intro τ h he
      exact quiet he (by rw [h]; exact Nat.le_refl _) (fun s v hv => by rw [h] at hv; exact Or.inl ⟨v, hv, rfl⟩)
    have md : ∀ {τ : St} {t : Nat} (f : Srv → Srv), (∀ v, (f v).pc = v.pc) → τ.srvs = σ.srvs.modify t f →
        (∀ s, receivedOn s evs = [] ∧ notifiedOn s evs = [] ∧ callsOn s evs = []) → HistInv (tr ++ evs) τ := by
      intro τ t f hf h he
      refine quiet he (by rw [h]; simp) (fun s v hv => ?_)
      rw [h, List.getElem?_modify] at hv
      obtain ⟨u, hu, rfl⟩ := Option.map_eq_some_iff.mp hv
      refine Or.inl ⟨u, hu, ?_⟩
      split
      · exact hf u
      · rfl
    have app : ∀ {τ : St} (ip : IpAddr), τ.srvs = σ.srvs ++ [Srv.spawned ip] →
        (∀ s, receivedOn s evs = [] ∧ notifiedOn s evs = [] ∧ callsOn s evs = []) → HistInv (tr ++ evs) τ := by
      intro τ ip h he
      refine quiet he (by rw [h]; simp) (fun s v' hv' => ?_)
      rw [h, List.getElem?_append] at hv'
      split at hv'
      · exact Or.inl ⟨v', hv', rfl⟩
      · rename_i hlt
        obtain ⟨h1, h2⟩ := List.getElem?_eq_some_iff.mp hv'
        have : s - σ.srvs.length = 0 := by simp at h1; omega
        simp only [this, List.getElem_cons_zero] at h2
        exact Or.inr ⟨by omega, by rw [← h2]; rfl⟩
    cases hd with
    | spawnM e h => exact app e.addr rfl (fun s => ⟨rfl, rfl, rfl⟩)
    | spawnU e h => exact app e.addr rfl (fun s => ⟨rfl, rfl, rfl⟩)
    | flag t => exact md (t := t) (fun v => { v with stop := true }) (fun _ => rfl) rfl (fun s => ⟨rfl, rfl, rfl⟩)
    | joined t u hu hh hp => exact md (t := t) (fun v => { v with handle := false }) (fun _ => rfl) rfl (fun s => ⟨rfl, rfl, rfl⟩)
    | joinCrash t u hu hh hp => exact md (t := t) (fun v => { v with handle := false }) (fun _ => rfl) rfl (fun s => ⟨rfl, rfl, rfl⟩)
    | observe t o u hu hn hp => exact md (t := t) (fun v => { v with observers := v.observers ++ [o] }) (fun _ => rfl) rfl (fun s => ⟨rfl, rfl, rfl⟩)
    | _ => exact same rfl (fun s => ⟨rfl, rfl, rfl⟩)

theorem runs_hist {tr : List Ev} {σ : St} (h : Runs tr σ) : HistInv tr σ := by
  induction h with
  | new => exact ⟨fun s v hv => by simp [St.new] at hv, fun s _ => ⟨rfl, rfl, rfl⟩⟩
  | step _ hs ih => exact hist_step ih hs

/-- The socket events up to the first one that ends the loop. -/
theorem harmless_split (es : List SocketEvent) : (∀ e ∈ es, Harmless e) ∨
    ∃ pre e rest, es = pre ++ e :: rest ∧ (∀ e ∈ pre, Harmless e) ∧ ¬ Harmless e := by
  induction es with
  | nil => exact Or.inl (by simp)
  | cons x es ih =>
    by_cases hx : Harmless x
    · rcases ih with h | ⟨pre, e, rest, h1, h2, h3⟩
      · left
        intro e he
        rcases List.mem_cons.mp he with rfl | he
        · exact hx
        · exact h e he
      · refine Or.inr ⟨x :: pre, e, rest, by rw [h1]; rfl, ?_, h3⟩
        intro e he
        rcases List.mem_cons.mp he with rfl | he
        · exact hx
        · exact h2 e he
    · exact Or.inr ⟨[], x, es, rfl, by simp, hx⟩

theorem recvLoop_handed (es : List SocketEvent) : ∃ pre, pre <+: es ∧ Handed pre (recvLoop es).1 := by
  rcases harmless_split es with h | ⟨pre, e, rest, h1, h2, h3⟩
  · exact ⟨es, List.prefix_refl _, (C46_handed_partial es h).1⟩
  · refine ⟨pre, by rw [h1]; exact List.prefix_append _ _, ?_⟩
    rw [h1, C46_end pre e rest h2 h3]
    exact (C46_handed_partial pre h2).1

theorem recvLoop_running {es : List SocketEvent} (h : (recvLoop es).2 = .running) : Handed es (recvLoop es).1 := by
  rcases harmless_split es with h' | ⟨pre, e, rest, h1, h2, h3⟩
  · exact (C46_handed_partial es h').1
  · rw [h1, C46_end pre e rest h2 h3] at h
    split at h <;> simp at h

/-- C78: in any interleaving with the caller and the other threads, the thread of a server calls, for one message after
the other, the observers registered at that moment one after the other, and the messages are those of the well-formed
datagrams it received, in that order; it never calls anything else. -/
theorem C78_order (tr : List Ev) (σ : St) (h : Runs tr σ) (s : Nat) :
    callsOn s tr <+: (notifiedOn s tr).flatMap (fun x => x.2.map (fun o => (o, x.1))) ∧
    ∃ es ms, es <+: receivedOn s tr ∧ Handed es ms ∧ (notifiedOn s tr).map (fun x => x.1) <+: ms := by
  obtain ⟨pre, hpre, hh⟩ := recvLoop_handed (receivedOn s tr)
  suffices hg : callsOn s tr <+: (notifiedOn s tr).flatMap (fun x => x.2.map (fun o => (o, x.1))) ∧
      (notifiedOn s tr).map (fun x => x.1) <+: (recvLoop (receivedOn s tr)).1 from ⟨hg.1, pre, _, hpre, hh, hg.2⟩
  obtain ⟨h1, h2⟩ := runs_hist h
  by_cases hlt : s < σ.srvs.length
  · have hi := h1 s _ (List.getElem?_eq_getElem hlt)
    have ho : ∀ l, owedCalls l = l.flatMap (fun x => x.2.map (fun o => (o, x.1))) := fun _ => rfl
    rw [← ho]
    unfold ThreadInv at hi
    simp only [] at hi
    split at hi
    · exact ⟨by rw [hi.2]; exact List.prefix_refl _, by rw [hi.1]; exact List.prefix_refl _⟩
    · exact ⟨by rw [hi.2]; exact List.prefix_refl _, by rw [hi.1]; exact List.prefix_refl _⟩
    · exact ⟨by rw [hi.2]; exact List.prefix_refl _, by rw [hi.1]; exact List.prefix_append _ _⟩
    · exact ⟨by rw [← hi.2]; exact List.prefix_append _ _, by rw [hi.1]; exact List.prefix_refl _⟩
    · exact ⟨by rw [hi.2]; exact List.prefix_refl _, by rw [hi.1]; exact List.prefix_refl _⟩
    · exact ⟨hi.2, hi.1⟩
  · obtain ⟨a1, a2, a3⟩ := h2 s (by omega)
    rw [a1, a2, a3]
    exact ⟨List.prefix_refl _, List.prefix_refl _⟩

/-- C78: whenever the thread waits for the next datagram, nothing has been left out. -/
theorem C78_complete (tr : List Ev) (σ : St) (h : Runs tr σ) (s : Nat) (v : Srv) (hv : σ.srvs[s]? = some v)
    (hp : v.pc = .recv) :
    callsOn s tr = (notifiedOn s tr).flatMap (fun x => x.2.map (fun o => (o, x.1))) ∧
    Handed (receivedOn s tr) ((notifiedOn s tr).map (fun x => x.1)) := by
  have hi := (runs_hist h).1 s v hv
  unfold ThreadInv at hi
  simp only [] at hi
  rw [hp] at hi
  have := recvLoop_running (es := receivedOn s tr) (by rw [hi.1])
  rw [hi.1] at this
  exact ⟨hi.2, this⟩

/-- C78: nor when it has ended because of `stop` or of a socket error: what was received before has been handed over. -/
theorem C78_complete_at_end (tr : List Ev) (σ : St) (h : Runs tr σ) (s : Nat) (v : Srv) (hv : σ.srvs[s]? = some v)
    (hp : v.pc = .finished) :
    callsOn s tr = (notifiedOn s tr).flatMap (fun x => x.2.map (fun o => (o, x.1))) ∧
    ∃ es, (receivedOn s tr = es ∨ ∃ e rest, receivedOn s tr = es ++ e :: rest ∧ ¬ Harmless e) ∧
      Handed es ((notifiedOn s tr).map (fun x => x.1)) := by
  have hi := (runs_hist h).1 s v hv
  unfold ThreadInv at hi
  simp only [] at hi
  rw [hp] at hi
  refine ⟨hi.2, ?_⟩
  rw [← hi.1]
  rcases harmless_split (receivedOn s tr) with h' | ⟨pre, e, rest, h1, h2, h3⟩
  · exact ⟨_, Or.inl rfl, (C46_handed_partial _ h').1⟩
  · refine ⟨pre, Or.inr ⟨e, rest, h1, h3⟩, ?_⟩
    rw [h1, C46_end pre e rest h2 h3]
    exact (C46_handed_partial pre h2).1

/-! ### Registered observers stay registered -/

def HasObs (o : ObserverRef) (σ : St) (s : Nat) : Prop := ∀ v, σ.srvs[s]? = some v → o ∈ v.observers

theorem observers_step {σ σ' : St} {w : Who} {evs : List Ev} (hs : Step σ w evs σ') (o : ObserverRef) (s : Nat)
    (hlt : s < σ.srvs.length) (h : HasObs o σ s) : HasObs o σ' s := by
  have md : ∀ {τ : St} {t : Nat} (f : Srv → Srv), (∀ v, o ∈ v.observers → o ∈ (f v).observers) → τ.srvs = σ.srvs.modify t f →
      HasObs o τ s := by
    intro τ t f hf h' v hv
    rw [h', List.getElem?_modify] at hv
    obtain ⟨u, hu, rfl⟩ := Option.map_eq_some_iff.mp hv
    split
    · exact hf u (h u hu)
    · exact h u hu
  have app : ∀ {τ : St} (ip : IpAddr), τ.srvs = σ.srvs ++ [Srv.spawned ip] → HasObs o τ s := by
    intro τ ip h' v hv
    rw [h', List.getElem?_append_left hlt] at hv
    exact h v hv
  cases hs with
  | thread t v v' _ hv hr =>
    intro u hu
    rw [List.getElem?_set] at hu
    split at hu
    · rename_i he; subst he
      simp only [hlt, if_true, Option.some.injEq] at hu
      subst hu
      rw [(recv_stop hr).2]; exact h v hv
    · exact h u hu
  | invoke op hc => exact h
  | caller op a as _ _ hcal hd =>
    cases hd with
    | spawnM e _ => exact app e.addr rfl
    | spawnU e _ => exact app e.addr rfl
    | flag t => exact md (t := t) (fun v => { v with stop := true }) (fun _ h => h) rfl
    | joined t u hu hh hp => exact md (t := t) (fun v => { v with handle := false }) (fun _ h => h) rfl
    | joinCrash t u hu hh hp => exact md (t := t) (fun v => { v with handle := false }) (fun _ h => h) rfl
    | observe t o' u hu hn hp =>
      exact md (t := t) (fun v => { v with observers := v.observers ++ [o'] }) (fun _ h => by simp [h]) rfl
    | _ => exact h

/-- During `add_observer`, every server with a live thread has the observer or gets it. -/
def AddInv (σ : St) : Prop := ∀ o acts, σ.caller = some ⟨.addObserver o, acts⟩ → ∀ s, LiveAt σ s →
  HasObs o σ s ∨ .observe s o ∈ acts

theorem live_lt {σ : St} {s : Nat} (h : LiveAt σ s) : s < σ.srvs.length := by
  obtain ⟨v, hv, _⟩ := h
  exact (List.getElem?_eq_some_iff.mp hv).1

/-- Without new servers, a live thread was live before. -/
theorem live_step {σ σ' : St} {w : Who} {evs : List Ev} (inv : StInv σ) (hs : Step σ w evs σ')
    (hop : ∀ op acts, σ.caller = some ⟨op, acts⟩ → ¬ IsStart op) (s : Nat) (h : LiveAt σ' s) : LiveAt σ s := by
  cases hs with
  | thread t v v' _ hv hr =>
    obtain ⟨hd, hh⟩ := recv_dead hr
    exact (Fewer.set hv hd hh { σ with srvs := σ.srvs.set t v' } rfl).live s h
  | invoke op hc => exact h
  | caller op a as _ _ hcal hd =>
    have hns := hop op _ hcal
    have hj := inv.job _ _ hcal
    have nospawn : ∀ e, a ≠ .spawnM e ∧ a ≠ .spawnU e := by
      intro e
      cases hj with
      | starting ho _ => exact (hns ho).elim
      | stopping h _ =>
        rcases h.head with ⟨s, rfl⟩ | ⟨s, rfl⟩ | rfl | rfl | ⟨_, r, rfl, _⟩ <;> simp
      | observing o ho h =>
        rcases h a (by simp) with ⟨s, _, rfl⟩ | rfl <;> simp
    cases hd with
    | spawnM e _ => exact ((nospawn e).1 rfl).elim
    | spawnU e _ => exact ((nospawn e).2 rfl).elim
    | flag t => exact (Fewer.modify (σ := σ) (s := t) (fun v => { v with stop := true }) (fun _ => rfl) (fun _ _ => Or.inl rfl) _ rfl).live s h
    | joined t u hu hh hp =>
      exact (Fewer.modify (σ := σ) (s := t) (fun v => { v with handle := false }) (fun _ => rfl)
        (fun v hv => Or.inr (by rw [hu, Option.some.injEq] at hv; subst hv; exact Or.inl hp)) _ rfl).live s h
    | joinCrash t u hu hh hp =>
      exact (Fewer.modify (σ := σ) (s := t) (fun v => { v with handle := false }) (fun _ => rfl)
        (fun v hv => Or.inr (by rw [hu, Option.some.injEq] at hv; subst hv; exact Or.inr hp)) _ rfl).live s h
    | observe t o u hu hn hp =>
      exact (Fewer.modify (σ := σ) (s := t) (fun v => { v with observers := v.observers ++ [o] }) (fun _ => rfl) (fun _ _ => Or.inl rfl) _ rfl).live s h
    | _ => exact h

theorem AddInv.step {σ σ' : St} {w : Who} {evs : List Ev} (sinv : StInv σ) (inv : AddInv σ) (hs : Step σ w evs σ') : AddInv σ' := by
  intro o acts hc s hl
  have step := hs
  cases hs with
  | thread t v v' _ hv hr =>
    have hl' : LiveAt σ s := live_step sinv step (by intro op as h; rw [hc] at h; simp only [Option.some.injEq, Job.mk.injEq] at h; rw [← h.1]; simp [IsStart]) s hl
    rcases inv o acts hc s hl' with h | h
    · exact Or.inl (observers_step step o s (live_lt hl') h)
    · exact Or.inr h
  | invoke op hc' =>
    simp only [Option.some.injEq, Job.mk.injEq] at hc
    obtain ⟨rfl, rfl⟩ := hc
    right
    simp only [St.actsOf, List.mem_append, List.mem_map]
    exact Or.inl ⟨s, sinv.reg s hl, rfl⟩
  | caller op a as _ _ hcal hd =>
    have go : op = .addObserver o → as = acts → ∀ t, (a = .observe t o → HasObs o σ' t) →
        (∀ t', a = .observe t' o → t' = t) → HasObs o σ' s ∨ .observe s o ∈ acts := by
      intro ho ha t h1 h2
      have hl' : LiveAt σ s := live_step sinv step (by intro op' as' h; rw [hcal] at h; simp only [Option.some.injEq, Job.mk.injEq] at h; rw [← h.1, ho]; simp [IsStart]) s hl
      rw [ho] at hcal
      rcases inv o _ hcal s hl' with h | h
      · exact Or.inl (observers_step step o s (live_lt hl') h)
      · rcases List.mem_cons.mp h with h | h
        · have := h2 s h.symm
          subst this
          exact Or.inl (h1 h.symm)
        · exact Or.inr (by rw [← ha]; exact h)
    have notobs : op = .addObserver o → ∀ b, a = b → (∀ t o', b ≠ .observe t o') → as = acts →
        HasObs o σ' s ∨ .observe s o ∈ acts := by
      intro ho b hb hn ha
      exact go ho ha s (fun h => (hn s o (by rw [← hb]; exact h)).elim) (fun t' h => (hn t' o (by rw [← hb]; exact h)).elim)
    have hj := sinv.job _ _ hcal
    have jobcase : op = .addObserver o → (∃ t, a = .observe t o) ∨ a = .ret true := by
      intro ho
      subst ho
      cases hj with
      | starting ho _ => exact ho.elim
      | stopping h ho => rcases ho with ho | ho
                         · simp at ho
                         · exact ho.elim
      | observing o' ho h =>
        simp only [MOp.addObserver.injEq] at ho
        subst ho
        rcases h a (by simp) with ⟨s, _, rfl⟩ | rfl
        · exact Or.inl ⟨s, rfl⟩
        · exact Or.inr rfl
    cases hd with
    | observe t o' u hu hn hp =>
      simp only [Option.some.injEq, Job.mk.injEq] at hc
      rcases jobcase hc.1 with ⟨t', h'⟩ | h'
      · simp only [Act.observe.injEq] at h'
        obtain ⟨rfl, rfl⟩ := h'
        refine go hc.1 hc.2 t (fun _ => ?_) (by intro t' h'; simp only [Act.observe.injEq, and_true] at h'; exact h'.symm)
        intro v hv
        simp only [St.modify, List.getElem?_modify, if_true] at hv
        obtain ⟨w, _, rfl⟩ := Option.map_eq_some_iff.mp hv
        simp
      · simp at h'
    | crashM e h => simp at hc
    | joinCrash s v hv hh hp => simp at hc
    | observeCrash s o v hv hn hp => simp at hc
    | ret r => simp at hc
    | _ =>
      simp only [Option.some.injEq, Job.mk.injEq] at hc
      rcases jobcase hc.1 with ⟨t', h'⟩ | h' <;> simp at h'

theorem runs_add {tr : List Ev} {σ : St} (h : Runs tr σ) : AddInv σ := by
  induction h with
  | new => intro o acts hc; simp [St.new] at hc
  | step h hs ih => exact AddInv.step (runs_inv h) ih hs

theorem runs_shape {tr : List Ev} {σ : St} (h : Runs tr σ) : ∀ o acts, σ.caller = some ⟨.addObserver o, acts⟩ →
    ∃ l : List Nat, acts = l.map (fun s => .observe s o) ++ [.ret true] := by
  induction h with
  | new => intro o acts hc; simp [St.new] at hc
  | @step tr σ σ' w evs h hs ih =>
    intro o acts hc
    cases hs with
    | thread t v v' _ hv hr => exact ih o acts hc
    | invoke op hc' =>
      simp only [Option.some.injEq, Job.mk.injEq] at hc
      obtain ⟨rfl, rfl⟩ := hc
      exact ⟨σ.ucast ++ σ.mcast, rfl⟩
    | caller op a as _ _ hcal hd =>
      have go : op = .addObserver o → as = acts → ∃ l : List Nat, acts = l.map (fun s => .observe s o) ++ [.ret true] := by
        intro ho ha
        rw [ho] at hcal
        obtain ⟨l, hl⟩ := ih o _ hcal
        cases l with
        | nil =>
          simp only [List.map_nil, List.nil_append, List.cons.injEq] at hl
          obtain ⟨rfl, rfl⟩ := hl
          cases hd; simp at hc
        | cons x l =>
          simp only [List.map_cons, List.cons_append, List.cons.injEq] at hl
          exact ⟨l, by rw [← ha]; exact hl.2⟩
      have nofail : op = .addObserver o → a = .readyM ∨ a = .readyU → False := by
        intro ho ha
        rw [ho] at hcal
        obtain ⟨l, hl⟩ := ih o _ hcal
        cases l with
        | nil => rcases ha with rfl | rfl <;> simp at hl
        | cons x l => rcases ha with rfl | rfl <;> simp at hl
      cases hd with
      | failM _ => simp only [Option.some.injEq, Job.mk.injEq] at hc; exact (nofail hc.1 (Or.inl rfl)).elim
      | failU _ => simp only [Option.some.injEq, Job.mk.injEq] at hc; exact (nofail hc.1 (Or.inr rfl)).elim
      | crashM e h => simp at hc
      | joinCrash s v hv hh hp => simp at hc
      | observeCrash s o v hv hn hp => simp at hc
      | ret r => simp at hc
      | _ =>
        simp only [Option.some.injEq, Job.mk.injEq] at hc
        exact go hc.1 hc.2

/-- Everyone has the observer, and nobody is starting servers. -/
def Registered (o : ObserverRef) (σ : St) : Prop :=
  (∀ s, LiveAt σ s → HasObs o σ s) ∧ ∀ op acts, σ.caller = some ⟨op, acts⟩ → ¬ IsStart op

theorem Registered.step {o : ObserverRef} {σ σ' : St} {w : Who} {evs : List Ev} (sinv : StInv σ) (inv : Registered o σ)
    (hs : Step σ w evs σ') (hns : ∀ x ∈ evs, ¬ Starts x) :
    Registered o σ' ∧ ∀ s m obs, Ev.notify s m obs ∈ evs → o ∈ obs := by
  refine ⟨⟨?_, ?_⟩, ?_⟩
  · intro s hl
    have hl' := live_step sinv hs inv.2 s hl
    exact observers_step hs o s (live_lt hl') (inv.1 s hl')
  · intro op acts hc
    cases hs with
    | thread t v v' _ hv hr => exact inv.2 op acts hc
    | invoke op' hc' =>
      simp only [Option.some.injEq, Job.mk.injEq] at hc
      obtain ⟨rfl, rfl⟩ := hc
      have := hns _ (List.mem_cons_self)
      cases op' with
      | start _ _ => exact (this trivial).elim
      | stop => simp [IsStart]
      | addObserver _ => simp [IsStart]
    | caller op' a as _ _ hcal hd =>
      have hop := inv.2 _ _ hcal
      cases hd <;> simp only [Option.some.injEq, Job.mk.injEq, reduceCtorEq] at hc <;> rw [← hc.1] <;> exact hop
  · intro s m obs hm
    cases hs with
    | thread t v v' _ hv hr =>
      have hd := (recv_dead hr).1
      cases hr <;> simp only [List.mem_cons, List.not_mem_nil, or_false, reduceCtorEq, Ev.notify.injEq] at hm
      obtain ⟨rfl, rfl, rfl⟩ := hm
      exact inv.1 s ⟨v, hv, hd⟩ v hv
    | invoke op' hc' => simp at hm
    | caller op' a as _ _ hcal hd => cases hd <;> simp at hm

/-- C78: an observer whose registration has returned is notified of every later message of every server, until `start` is
called again. -/
theorem C78_registered (tr p₁ p₂ : List Ev) (σ : St) (o : ObserverRef) (h : Runs tr σ)
    (htr : tr = p₁ ++ .returned (.addObserver o) true :: p₂) (hns : ∀ x ∈ p₂, ¬ Starts x)
    (s : Nat) (m : Message) (obs : List ObserverRef) (hm : Ev.notify s m obs ∈ p₂) : o ∈ obs := by
  suffices hg : Registered o σ ∧ ∀ s m obs, Ev.notify s m obs ∈ p₂ → o ∈ obs from hg.2 s m obs hm
  clear hm
  induction h generalizing p₂ with
  | new => simp at htr
  | @step tr σ σ' w evs h hs ih =>
    rcases split_append htr with ⟨q, h1⟩ | ⟨q, q', h1, h2⟩
    · have hp : p₂ = q ++ evs := by
        rw [h1] at htr
        simp only [List.append_assoc, List.cons_append, List.append_cancel_left_eq, List.cons.injEq, true_and] at htr
        exact htr.symm
      subst hp
      obtain ⟨g1, g2⟩ := ih q h1 (fun x hx => hns x (by simp [hx]))
      obtain ⟨k1, k2⟩ := g1.step (runs_inv h) hs (fun x hx => hns x (by simp [hx]))
      refine ⟨k1, ?_⟩
      intro s m obs hx
      rcases List.mem_append.mp hx with hx | hx
      · exact g2 s m obs hx
      · exact k2 s m obs hx
    · have hmem : Ev.returned (.addObserver o) true ∈ evs := by rw [h2]; simp
      cases hs with
      | thread t v v' _ hv hr => cases hr <;> simp at hmem
      | invoke op' hc' => simp at hmem
      | caller op a as _ _ hcal hd =>
        cases hd <;> simp only [List.mem_cons, List.not_mem_nil, or_false, reduceCtorEq, Ev.returned.injEq] at hmem
        obtain ⟨rfl, rfl⟩ := hmem
        have hq : q = [] ∧ q' = [] := by
          cases q with
          | nil => simp only [List.nil_append, List.cons.injEq] at h2; exact ⟨rfl, h2.2.symm⟩
          | cons _ q => simp at h2
        obtain ⟨rfl, rfl⟩ := hq
        have hp : p₂ = [] := by
          rw [List.append_nil] at h1
          rw [h1] at htr
          simp only [List.append_cancel_left_eq, List.cons.injEq, true_and] at htr
          exact htr.symm
        subst hp
        obtain ⟨l, hl⟩ := runs_shape h _ _ hcal
        have has : as = [] := by
          cases l with
          | nil => simpa using hl
          | cons x l => simp at hl
        subst has
        refine ⟨⟨?_, ?_⟩, by simp⟩
        · intro s hs
          rcases runs_add h o _ hcal s hs with h' | h'
          · exact h'
          · simp at h'
        · intro op acts hc; simp at hc

/-! ### Executions -/

def exDatagram : SocketEvent := .datagram [0x10, 0x81, 0, 1, 5, 0xFF, 1, 0x0E, 0xF0, 1, 0x62, 1, 0xD6, 0] ⟨.v4 1, 3610⟩
def exPoison : SocketEvent := .datagram [0x10, 0x81, 0, 1, 5, 0xFF, 1, 0x0E, 0xF0, 1, 0x6E, 0] ⟨.v4 1, 3610⟩

/-- One multicast server (0) and one unicast server (1) running, each with one observer. -/
theorem exUp : Runs
    [.invoked (.start [exIf] [exIf]), .returned (.start [exIf] [exIf]) true,
     .invoked (.addObserver (.user 7)), .returned (.addObserver (.user 7)) true]
    ⟨[⟨exIf.addr, [.user 7], false, false, true, .check⟩, ⟨exIf.addr, [.user 7], false, false, true, .check⟩], [1], [0], none⟩ := by
  have h1 := Runs.step Runs.new (.invoke (.start [exIf] [exIf]) rfl)
  have h2 := Runs.step h1 (.caller _ _ _ _ _ rfl (.spawnM exIf rfl))
  have h3 := Runs.step h2 (.caller _ _ _ _ _ rfl (.readyM rfl))
  have h4 := Runs.step h3 (.caller _ _ _ _ _ rfl (.spawnU exIf rfl))
  have h5 := Runs.step h4 (.caller _ _ _ _ _ rfl (.readyU rfl))
  have h6 := Runs.step h5 (.caller _ _ _ _ _ rfl (.ret true))
  have h7 := Runs.step h6 (.invoke (.addObserver (.user 7)) rfl)
  have h8 := Runs.step h7 (.caller _ _ _ _ _ rfl (.observe 1 (.user 7) _ rfl rfl rfl))
  have h9 := Runs.step h8 (.caller _ _ _ _ _ rfl (.observe 0 (.user 7) _ rfl rfl rfl))
  exact Runs.step h9 (.caller _ _ _ _ _ rfl (.ret true))

/-- The unicast server receives a datagram, is told to stop while it calls the observer, and `stop` returns: the
hypotheses of `C77_silent`, `C77_result`, `C77_stop_progress`, `C78_order`, `C78_complete_at_end` and `C78_registered`
are met. -/
theorem exStopped : ∃ m σ tr, Runs tr σ ∧ m.sender = ⟨.v4 1, 3610⟩ ∧ (∃ v, σ.srvs[1]? = some v ∧ v.pc = .finished) ∧
    tr = [.invoked (.start [exIf] [exIf]), .returned (.start [exIf] [exIf]) true,
     .invoked (.addObserver (.user 7)), .returned (.addObserver (.user 7)) true,
     .received 1 exDatagram, .notify 1 m [.user 7], .invoked .stop, .called 1 (.user 7) m, .returned .stop true] := by
  have h0 := exUp
  have h1 := Runs.step h0 (.thread 1 _ _ _ rfl (.wait rfl rfl))
  have h2 := Runs.step h1 (.thread 1 _ _ _ rfl (.got exDatagram rfl))
  have h3 := Runs.step h2 (.thread 1 _ _ _ rfl (.lock _ rfl rfl))
  have h4 := Runs.step h3 (.invoke .stop rfl)
  have h5 := Runs.step h4 (.caller _ _ _ _ _ rfl (.flag 1))
  have h6 := Runs.step h5 (.thread 1 _ _ _ rfl (.call _ _ _ rfl))
  have h7 := Runs.step h6 (.thread 1 _ _ _ rfl (.next _ rfl))
  have h8 := Runs.step h7 (.thread 1 _ _ _ rfl (.exit rfl rfl))
  have h9 := Runs.step h8 (.caller _ _ _ _ _ rfl (.joined 1 _ rfl rfl rfl))
  have h10 := Runs.step h9 (.caller _ _ _ _ _ rfl .clearU)
  have h11 := Runs.step h10 (.caller _ _ _ _ _ rfl (.flag 0))
  have h12 := Runs.step h11 (.thread 0 _ _ _ rfl (.exit rfl rfl))
  have h13 := Runs.step h12 (.caller _ _ _ _ _ rfl (.joined 0 _ rfl rfl rfl))
  have h14 := Runs.step h13 (.caller _ _ _ _ _ rfl .clearM)
  have h15 := Runs.step h14 (.caller _ _ _ _ _ rfl (.ret true))
  exact ⟨_, _, _, h15, rfl, ⟨_, rfl, rfl⟩, rfl⟩

/-- C77 (the exception): after one datagram has killed the thread of a unicast server, `stop` panics in the middle, and
the servers it did not get to go on: the multicast server still receives and calls its observer. -/
theorem C77_crash_leaves_running : ∃ m σ tr, Runs tr σ ∧
    tr = [.invoked (.start [exIf] [exIf]), .returned (.start [exIf] [exIf]) true,
     .invoked (.addObserver (.user 7)), .returned (.addObserver (.user 7)) true,
     .received 1 exPoison, .invoked .stop, .crashed .stop,
     .received 0 exDatagram, .notify 0 m [.user 7], .called 0 (.user 7) m] := by
  have h0 := exUp
  have h1 := Runs.step h0 (.thread 1 _ _ _ rfl (.wait rfl rfl))
  have h2 := Runs.step h1 (.thread 1 _ _ _ rfl (.got exPoison rfl))
  have h3 := Runs.step h2 (.invoke .stop rfl)
  have h4 := Runs.step h3 (.caller _ _ _ _ _ rfl (.flag 1))
  have h5 := Runs.step h4 (.caller _ _ _ _ _ rfl (.joinCrash 1 _ rfl rfl rfl))
  have h6 := Runs.step h5 (.thread 0 _ _ _ rfl (.wait rfl rfl))
  have h7 := Runs.step h6 (.thread 0 _ _ _ rfl (.got exDatagram rfl))
  have h8 := Runs.step h7 (.thread 0 _ _ _ rfl (.lock _ rfl rfl))
  have h9 := Runs.step h8 (.thread 0 _ _ _ rfl (.call _ _ _ rfl))
  exact ⟨_, _, _, h9, rfl⟩

/-- `C77_panics_only` and `C77_stop_bounded` are about reachable executions. -/
example : ∃ tr σ, Runs tr σ ∧ Ev.crashed .stop ∈ tr := by
  obtain ⟨m, σ, tr, h, rfl⟩ := C77_crash_leaves_running
  exact ⟨_, σ, h, by simp⟩

example : ∃ tr σ σ₁ σ' k, Runs tr σ ∧ Step σ .app [.invoked .stop] σ₁ ∧ During σ₁ k σ' ∧ k = 2 :=
  ⟨_, _, _, _, _, exUp, .invoke .stop rfl,
    .helpful (.caller _ _ _ _ _ rfl (.flag 1)) (Or.inl rfl) (by simp) (.other (.thread 0 _ _ _ rfl (.wait rfl rfl))
      (by rintro (h | ⟨s, h, op, as, h'⟩)
          · simp at h
          · simp only [Who.thread.injEq] at h; subst h; simp [St.modify, St.actsOf, St.stopActs] at h') (by simp)
      (.helpful (.thread 1 _ _ _ rfl (.exit rfl rfl)) (Or.inr ⟨1, rfl, _, _, rfl⟩) (by simp) (.refl _))), rfl⟩

/-- A waiting thread that has handed over a datagram (`C78_complete`). -/
example : ∃ tr σ v, Runs tr σ ∧ σ.srvs[1]? = some v ∧ v.pc = .recv ∧ (callsOn 1 tr).length = 1 := by
  have h0 := exUp
  have h1 := Runs.step h0 (.thread 1 _ _ _ rfl (.wait rfl rfl))
  have h2 := Runs.step h1 (.thread 1 _ _ _ rfl (.got exDatagram rfl))
  have h3 := Runs.step h2 (.thread 1 _ _ _ rfl (.lock _ rfl rfl))
  have h4 := Runs.step h3 (.thread 1 _ _ _ rfl (.call _ _ _ rfl))
  have h5 := Runs.step h4 (.thread 1 _ _ _ rfl (.next _ rfl))
  have h6 := Runs.step h5 (.thread 1 _ _ _ rfl (.wait rfl rfl))
  exact ⟨_, _, _, h6, rfl, rfl, rfl⟩

end Uecho
