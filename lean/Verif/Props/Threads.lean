import Verif.Spec.Threads
/-!
# C89: calls made by several threads take effect one at a time
-/
namespace Uecho
open Spec
set_option linter.unusedSectionVars false
variable {A G O R : Type} {X : G → Type} [DecidableEq G] {P : Program A G O R X}

@[simp] theorem put_same {Y : G → Type} (f : (g : G) → Y g) (g : G) (y : Y g) : put f g y g = y := by
  simp [put]

theorem put_ne {Y : G → Type} (f : (g : G) → Y g) {g g' : G} (y : Y g) (h : g' ≠ g) : put f g y g' = f g' := by
  simp [put, h]

@[simp] theorem now_doing (σ : Shared P) (t t' : Nat) (d : Doing A R O X P.guard) :
    (σ.now t d).doing t' = if t' = t then d else σ.doing t' := rfl
@[simp] theorem now_data (σ : Shared P) (t : Nat) (d : Doing A R O X P.guard) : (σ.now t d).data = σ.data := rfl
@[simp] theorem now_owner (σ : Shared P) (t : Nat) (d : Doing A R O X P.guard) : (σ.now t d).owner = σ.owner := rfl
@[simp] theorem now_poisoned (σ : Shared P) (t : Nat) (d : Doing A R O X P.guard) :
    (σ.now t d).poisoned = σ.poisoned := rfl
@[simp] theorem now_outs (σ : Shared P) (t : Nat) (d : Doing A R O X P.guard) : (σ.now t d).outs = σ.outs := rfl
@[simp] theorem now_calls (σ : Shared P) (t : Nat) (d : Doing A R O X P.guard) : (σ.now t d).calls = σ.calls := rfl
@[simp] theorem now_trace (σ : Shared P) (t : Nat) (d : Doing A R O X P.guard) : (σ.now t d).trace = σ.trace := rfl

/-- What has been transmitted so far comes first. -/
def after {X O R : Type} (w : List O) (r : Res (R × X × List O)) : Res (R × X × List O) :=
  r >>= fun p => .ok (p.1, p.2.1, w ++ p.2.2)

/-- The call a thread has made and that has not taken effect yet. -/
def Doing.pending {guard : A → G} : Doing A R O X guard → Option (Nat × A)
  | .waiting i a => some (i, a)
  | .inside i a _ => some (i, a)
  | _ => none

/-- Only thread `t` has moved. -/
theorem now_cases {σ : Shared P} {t t' : Nat} {d e : Doing A R O X P.guard} (h : (σ.now t d).doing t' = e) :
    (t' = t ∧ d = e) ∨ (t' ≠ t ∧ σ.doing t' = e) := by
  rw [now_doing] at h
  split at h
  · exact Or.inl ⟨‹_›, h⟩
  · exact Or.inr ⟨‹_›, h⟩

/-- Call `i` was made, has not returned, and no thread is executing it any more: its thread has crashed. -/
def Ended (σ : Shared P) (i : Nat) (a : A) : Prop :=
  Event.invoke i a ∈ σ.trace ∧ (∀ r, Event.returns i r ∉ σ.trace) ∧ ∀ t c, (σ.doing t).call ≠ some (i, c)

/-- Such a call stays so. -/
theorem Ended.step {σ τ : Shared P} (hs : TStep σ τ) {i : Nat} {a : A} (h : Ended σ i a) (hi : i < σ.calls) : Ended τ i a := by
  obtain ⟨h1, h2, h3⟩ := h
  have same : ∀ (σ' : Shared P) (t : Nat) (d : Doing A R O X P.guard), σ'.doing = σ.doing → σ'.trace = σ.trace →
      (d.call = none ∨ d.call = (σ.doing t).call) → Ended (σ'.now t d) i a := by
    intro σ' t d e1 e2 e3
    refine ⟨by rw [now_trace, e2]; exact h1, fun r => by rw [now_trace, e2]; exact h2 r, fun t' c hc => ?_⟩
    rw [now_doing, e1] at hc
    split at hc
    · rcases e3 with e3 | e3 <;> rw [e3] at hc
      · cases hc
      · exact h3 t c hc
    · exact h3 t' c hc
  cases hs with
  | @invoke t a' ht =>
    refine ⟨by simp [h1], fun r => by simpa using h2 r, fun t' c hc => ?_⟩
    rw [now_doing] at hc
    split at hc
    · cases hc; omega
    · exact h3 t' c hc
  | @acquire t j a' ht ho hp => exact same _ t _ rfl rfl (Or.inr (by rw [ht]; rfl))
  | @refuse t j a' g ht htr hw => exact same _ t _ rfl rfl (Or.inr (by rw [ht]; rfl))
  | @poisoned t j a' g l₁ l₂ ht hl hf hq => exact same _ t _ rfl rfl (Or.inl rfl)
  | @access t j a' f k ht => exact same _ t _ rfl rfl (Or.inr (by rw [ht]; rfl))
  | @release t j a' r ht => exact same _ t _ rfl rfl (Or.inr (by rw [ht]; rfl))
  | @panic t j a' ht => exact same _ t _ rfl rfl (Or.inl rfl)
  | @«return» t j a' r ht =>
    refine ⟨by simp [h1], fun r' hr' => ?_, fun t' c hc => ?_⟩
    · simp only [now_trace, List.mem_append, List.mem_singleton, Event.returns.injEq] at hr'
      rcases hr' with hr' | ⟨rfl, _⟩
      · exact h2 r' hr'
      · exact h3 t a' (by rw [ht]; rfl)
    · rw [now_doing] at hc
      split at hc
      · cases hc
      · exact h3 t' c hc

/-- The invariant behind C89: `l` explains the trace; a thread holding a mutex is the only one to have touched the data
behind it, and what it still has to do completes the effect of its call on what was there before. -/
structure ThInv (x : (g : G) → X g) (σ : Shared P) (l : List (Done A R)) (y : (g : G) → X g) (o : G → List O) : Prop where
  seq : OneByOne P x l y o
  ex : ExplainsCalls l σ.trace
  ids : ∀ i a, Event.invoke i a ∈ σ.trace → i < σ.calls
  named : ∀ i a a', Event.invoke i a ∈ σ.trace → Event.invoke i a' ∈ σ.trace → a = a'
  call : ∀ t i a, (σ.doing t).call = some (i, a) → Event.invoke i a ∈ σ.trace ∧ ∀ r, Event.returns i r ∉ σ.trace
  uniq : ∀ t t' i a a', (σ.doing t).call = some (i, a) → (σ.doing t').call = some (i, a') → t = t'
  pend : ∀ t i a, (σ.doing t).pending = some (i, a) → i ∉ l.map (·.id)
  ins : ∀ t i a rest, σ.doing t = .inside i a rest → (∀ g ∈ P.holds a, σ.owner g = some t) ∧
    ∃ w, σ.outs (P.guard a) = o (P.guard a) ++ w ∧
      (P.code a).run (y (P.guard a)) = after w (rest.run (σ.data (P.guard a)))
  leave : ∀ t i a r, σ.doing t = .leaving i a r → ∃ d ∈ l, d.id = i ∧ d.result = r
  own : ∀ g t, σ.owner g = some t → ∃ i a rest, σ.doing t = .inside i a rest ∧ g ∈ P.holds a
  free : ∀ g, σ.poisoned g = false → (∀ t i a rest, σ.doing t = .inside i a rest → P.guard a ≠ g) →
    σ.data g = y g ∧ σ.outs g = o g
  pois : ∀ g, σ.poisoned g = true → σ.owner g = none ∧ (∃ i a, g ∈ P.holds a ∧ Ended σ i a) ∧
    ∃ i a, σ.poisoned (P.guard a) = true ∧ Ended σ i a ∧ (P.code a).run (y (P.guard a)) = .panic
  ref : ∀ d ∈ l, d.refused = true → ∃ g, P.tries d.call = some g ∧ Overlapped σ.trace d.id (fun c => g ∈ P.holds c)
  crash : ∀ t i a, σ.doing t = .crashed i a → (∃ g ∈ P.locks a, σ.poisoned g = true) ∨
    (σ.poisoned (P.guard a) = true ∧ (P.code a).run (y (P.guard a)) = .panic)

theorem ThInv.init (x : (g : G) → X g) : ThInv (P := P) x (Shared.init P x) [] x (fun _ => []) where
  seq := .nil
  ex := ⟨by simp, by simp [Shared.init], by simp, by simp⟩
  ids := by simp [Shared.init]
  named := by simp [Shared.init]
  call := by simp [Shared.init, Doing.call]
  uniq := by simp [Shared.init, Doing.call]
  pend := by simp [Shared.init, Doing.pending]
  ins := by simp [Shared.init]
  leave := by simp [Shared.init]
  own := by simp [Shared.init]
  free := by simp [Shared.init]
  pois := by simp [Shared.init]
  ref := by simp
  crash := by simp [Shared.init]

theorem Doing.call_of_pending {guard : A → G} {d : Doing A R O X guard} {p : Nat × A} (h : d.pending = some p) :
    d.call = some p := by
  cases d <;> simp_all [Doing.pending, Doing.call]

/-- An invocation that is not the last event, after another event. -/
theorem sublist_before {e e' z : Event A R} {tr : List (Event A R)} (h : [e, e'].Sublist (tr ++ [z])) (hz : z ≠ e') :
    [e, e'].Sublist tr := by
  rw [List.sublist_append_iff] at h
  obtain ⟨l1, l2, he, h1, h2⟩ := h
  match l2, h2 with
  | [], _ => simp only [List.append_nil] at he; rw [he]; exact h1
  | z' :: zs, h2 =>
    have hlen := h2.length_le
    simp only [List.length_cons, List.length_nil] at hlen
    obtain rfl : zs = [] := List.eq_nil_of_length_eq_zero (by omega)
    have hz' : z' = z := by simpa using h2.subset (List.mem_singleton.mpr rfl)
    have : [e, e'].getLast? = (l1 ++ [z']).getLast? := by rw [he]
    simp [hz'] at this
    exact absurd this.symm hz

/-- Overlapping calls stay so when something else happens. -/
theorem Spec.Overlapped.mono {tr : List (Event A R)} {i : Nat} {z : Event A R} {B : A → Prop}
    (h : Overlapped tr i B) (hi : ∃ a, Event.invoke i a ∈ tr)
    (hz : ∀ k a, z = .invoke k a → ∀ c, Event.invoke k c ∉ tr) : Overlapped (tr ++ [z]) i B := by
  obtain ⟨j, a, h1, h2, hb, h3, h4⟩ := h
  refine ⟨j, a, h1, by simp [h2], hb, ?_, ?_⟩
  · rintro ⟨r, c, hs⟩
    refine h3 ⟨r, c, sublist_before hs ?_⟩
    rintro rfl
    exact hz j c rfl _ h2
  · rintro ⟨r, c, hs⟩
    refine h4 ⟨r, c, sublist_before hs ?_⟩
    rintro rfl
    obtain ⟨a', ha'⟩ := hi
    exact hz i c rfl _ ha'

/-- Appending an event that is neither a new return nor an invocation of a call that has taken effect keeps the
explanation. -/
theorem Spec.ExplainsCalls.invoke {l : List (Done A R)} {tr : List (Event A R)} (h : ExplainsCalls l tr) (i : Nat) (a : A)
    (hi : i ∉ l.map (·.id)) : ExplainsCalls l (tr ++ [.invoke i a]) where
  made d hd := by simp [h.made d hd]
  returned j r hj := by
    simp only [List.mem_append, List.mem_singleton, reduceCtorEq, or_false] at hj
    exact h.returned j r hj
  once := h.once
  order j r k c hs hk := by
    refine h.order j r k c ?_ hk
    rw [List.sublist_append_iff] at hs
    obtain ⟨l1, l2, he, h1, h2⟩ := hs
    match l2, h2 with
    | [], _ => simp only [List.append_nil] at he; rw [he]; exact h1
    | z :: zs, h2 =>
      have hlen := h2.length_le
      simp only [List.length_cons, List.length_nil] at hlen
      obtain rfl : zs = [] := List.eq_nil_of_length_eq_zero (by omega)
      have hz : z = .invoke i a := by simpa using h2.subset (List.mem_singleton.mpr rfl)
      have : [Event.returns j r, Event.invoke k c].getLast? = (l1 ++ [z]).getLast? := by rw [he]
      simp [hz] at this
      exact absurd hk (by rw [this.1]; exact hi)

theorem Spec.ExplainsCalls.return {l : List (Done A R)} {tr : List (Event A R)} (h : ExplainsCalls l tr) (i : Nat) (r : R)
    (hi : ∃ d ∈ l, d.id = i ∧ d.result = r) : ExplainsCalls l (tr ++ [.returns i r]) where
  made d hd := by simp [h.made d hd]
  returned j r' hj := by
    simp only [List.mem_append, List.mem_singleton, Event.returns.injEq] at hj
    rcases hj with hj | ⟨rfl, rfl⟩
    · exact h.returned j r' hj
    · exact hi
  once := h.once
  order j r' k c hs hk := by
    refine h.order j r' k c ?_ hk
    rw [List.sublist_append_iff] at hs
    obtain ⟨l1, l2, he, h1, h2⟩ := hs
    match l2, h2 with
    | [], _ => simp only [List.append_nil] at he; rw [he]; exact h1
    | z :: zs, h2 =>
      have hlen := h2.length_le
      simp only [List.length_cons, List.length_nil] at hlen
      obtain rfl : zs = [] := List.eq_nil_of_length_eq_zero (by omega)
      have hz : z = .returns i r := by simpa using h2.subset (List.mem_singleton.mpr rfl)
      have : [Event.returns j r', Event.invoke k c].getLast? = (l1 ++ [z]).getLast? := by rw [he]
      simp [hz] at this

/-- A pending call takes effect. -/
theorem Spec.ExplainsCalls.takes {l : List (Done A R)} {tr : List (Event A R)} (h : ExplainsCalls l tr) (d : Done A R)
    (hm : Event.invoke d.id d.call ∈ tr) (hi : d.id ∉ l.map (·.id)) : ExplainsCalls (l ++ [d]) tr where
  made e he := by
    simp only [List.mem_append, List.mem_singleton] at he
    rcases he with he | rfl
    · exact h.made e he
    · exact hm
  returned j r hj := by
    obtain ⟨e, he, h1⟩ := h.returned j r hj
    exact ⟨e, by simp [he], h1⟩
  once := by
    rw [List.map_append, List.nodup_append]
    refine ⟨h.once, by simp, ?_⟩
    intro u hu v hv huv
    simp only [List.map_cons, List.map_nil, List.mem_singleton] at hv
    exact hi (by rw [← hv, ← huv]; exact hu)
  order i r j a hs hj := by
    have hr : Event.returns i r ∈ tr := hs.subset (by simp)
    obtain ⟨e, he, rfl, _⟩ := h.returned i r hr
    rw [List.map_append] at hj ⊢
    simp only [List.map_cons, List.map_nil, List.mem_append, List.mem_singleton] at hj
    rcases hj with hj | rfl
    · exact (h.order _ r j a hs hj).trans (List.sublist_append_left _ _)
    · have : [e.id].Sublist (l.map (·.id)) := List.singleton_sublist.mpr (List.mem_map_of_mem he)
      exact this.append (List.Sublist.refl [d.id])

theorem ThInv.step (x : (g : G) → X g) (σ τ : Shared P) (l : List (Done A R)) (y : (g : G) → X g) (o : G → List O)
    (h : ThInv x σ l y o) (hs : TStep σ τ) : ∃ l' y' o', ThInv x τ l' y' o' := by
  have hend : ∀ i a, Ended σ i a → Ended τ i a := fun i a he => he.step hs (h.ids i a he.1)
  cases hs with
  | @invoke t a ht =>
    have hnew : σ.calls ∉ l.map (·.id) := by
      intro hm
      obtain ⟨d, hd, he⟩ := List.mem_map.mp hm
      exact absurd (h.ids _ _ (h.ex.made d hd)) (by omega)
    have hold : ∀ i a', Event.invoke i a' ∈ σ.trace → i ≠ σ.calls := fun i a' hi => by
      have := h.ids i a' hi; omega
    have hret : ∀ r, Event.returns σ.calls r ∉ σ.trace := by
      intro r hr
      obtain ⟨d, hd, he, _⟩ := h.ex.returned _ _ hr
      exact hnew (he ▸ List.mem_map_of_mem hd)
    refine ⟨l, y, o, h.seq, h.ex.invoke _ _ hnew, ?_, ?_, ?_, ?_, ?_, ?_, ?_, ?_, ?_, ?_, ?_, ?_⟩
    · intro i a' hi
      simp only [now_trace, List.mem_append, List.mem_singleton, Event.invoke.injEq] at hi
      show i < σ.calls + 1
      rcases hi with hi | ⟨rfl, _⟩
      · have := h.ids i a' hi; omega
      · omega
    · intro i a1 a2 h1 h2
      simp only [now_trace, List.mem_append, List.mem_singleton, Event.invoke.injEq] at h1 h2
      rcases h1 with h1 | ⟨rfl, rfl⟩ <;> rcases h2 with h2 | ⟨h2, rfl⟩
      · exact h.named i a1 a2 h1 h2
      · exact absurd h2 (hold i a1 h1)
      · exact absurd rfl (hold _ a2 h2)
      · rfl
    · intro t' i a' hp
      rw [now_doing] at hp
      split at hp
      · cases hp
        exact ⟨by simp, fun r => by simpa using hret r⟩
      · obtain ⟨h1, h2⟩ := h.call t' i a' hp
        exact ⟨by simp [h1], fun r => by simpa using h2 r⟩
    · intro t1 t2 i a1 a2 h1 h2
      rw [now_doing] at h1 h2
      split at h1 <;> rename_i e1 <;> split at h2 <;> rename_i e2
      · rw [e1, e2]
      · cases h1
        exact absurd rfl (hold _ _ (h.call t2 _ a2 h2).1)
      · cases h2
        exact absurd rfl (hold _ _ (h.call t1 _ a1 h1).1)
      · exact h.uniq t1 t2 i a1 a2 h1 h2
    · intro t' i a' hp
      rw [now_doing] at hp
      split at hp <;> rename_i e
      · cases hp; exact hnew
      · exact h.pend t' i a' hp
    · intro t' i a' rest hd
      rcases now_cases hd with ⟨_, hd⟩ | ⟨_, hd⟩
      · cases hd
      · exact h.ins t' i a' rest hd
    · intro t' i a' r hd
      rcases now_cases hd with ⟨_, hd⟩ | ⟨_, hd⟩
      · cases hd
      · exact h.leave t' i a' r hd
    · intro g t' ho
      obtain ⟨i, a', rest, h1, h2⟩ := h.own g t' ho
      refine ⟨i, a', rest, ?_, h2⟩
      rw [now_doing, if_neg]
      · exact h1
      · rintro rfl; rw [ht] at h1; cases h1
    · intro g hg hn
      refine h.free g hg (fun u j c rest hd => hn u j c rest ?_)
      rw [now_doing, if_neg]
      · exact hd
      · rintro rfl; rw [ht] at hd; cases hd
    · intro g hp
      obtain ⟨h1, ⟨i1, a1, g1, e1⟩, i2, a2, p2, e2, r2⟩ := h.pois g hp
      exact ⟨h1, ⟨i1, a1, g1, hend _ _ e1⟩, i2, a2, p2, hend _ _ e2, r2⟩
    · intro d hd hr
      obtain ⟨g, hg, ho⟩ := h.ref d hd hr
      refine ⟨g, hg, ho.mono ⟨_, h.ex.made d hd⟩ ?_⟩
      rintro k c hk c' hc'
      cases hk
      exact hold _ _ hc' rfl
    · intro t' i a' hd
      rcases now_cases hd with ⟨_, hd⟩ | ⟨_, hd⟩
      · cases hd
      · exact h.crash t' i a' hd
  | @acquire t i a ht ho hp =>
    have hni : ∀ u j c rest, σ.doing u = .inside j c rest → P.guard c ≠ P.guard a := by
      intro u j c rest hd e
      have := (h.ins u j c rest hd).1 _ (P.guarded c)
      rw [e, ho _ (P.guarded a)] at this
      cases this
    have hf := h.free _ (hp _ (P.guarded a)) hni
    have hcall : ∀ t', ((σ.now t (.inside i a (P.code a))).doing t').call = (σ.doing t').call := by
      intro t'
      rw [now_doing]
      split
      · rename_i e; rw [e, ht]; rfl
      · rfl
    have hpend : ∀ t', ((σ.now t (.inside i a (P.code a))).doing t').pending = (σ.doing t').pending := by
      intro t'
      rw [now_doing]
      split
      · rename_i e; rw [e, ht]; rfl
      · rfl
    refine ⟨l, y, o, h.seq, h.ex, h.ids, h.named, fun t' j c hc => h.call t' j c ((hcall t').symm.trans hc),
      fun t1 t2 j a1 a2 h1 h2 => h.uniq t1 t2 j a1 a2 ((hcall t1).symm.trans h1) ((hcall t2).symm.trans h2),
      fun t' j c hc => h.pend t' j c ((hpend t').symm.trans hc), ?_, ?_, ?_, ?_, ?_, h.ref, ?_⟩
    · intro t' j a' rest hd
      rcases now_cases hd with ⟨e, hd⟩ | ⟨e, hd⟩
      · cases hd
        refine ⟨fun g hg => by simp [hg, e], [], ?_, ?_⟩
        · simp [hf.2]
        · simp only [now_data]
          rw [hf.1]
          unfold after
          cases (P.code a).run (y (P.guard a)) <;> simp
      · obtain ⟨h1, h2⟩ := h.ins t' j a' rest hd
        refine ⟨fun g hg => ?_, h2⟩
        have := h1 g hg
        simp only [now_owner]
        rw [if_neg]
        · exact this
        · intro hm; rw [ho g hm] at this; cases this
    · intro t' j a' r hd
      rcases now_cases hd with ⟨_, hd⟩ | ⟨_, hd⟩
      · cases hd
      · exact h.leave t' j a' r hd
    · intro g t' hg
      simp only [now_owner] at hg
      split at hg
      · rename_i hm
        cases hg
        exact ⟨i, a, P.code a, by simp, hm⟩
      · obtain ⟨j, a', rest, h1, h2⟩ := h.own g t' hg
        refine ⟨j, a', rest, ?_, h2⟩
        rw [now_doing, if_neg]
        · exact h1
        · rintro rfl; rw [ht] at h1; cases h1
    · intro g hg hn
      refine h.free g hg (fun u j c rest hd => hn u j c rest ?_)
      rw [now_doing, if_neg]
      · exact hd
      · rintro rfl; rw [ht] at hd; cases hd
    · intro g hq
      obtain ⟨h1, ⟨i1, a1, g1, e1⟩, i2, a2, p2, e2, r2⟩ := h.pois g hq
      refine ⟨?_, ⟨i1, a1, g1, hend _ _ e1⟩, i2, a2, p2, hend _ _ e2, r2⟩
      simp only [now_owner]
      rw [if_neg]
      · exact h1
      · intro hm
        have : σ.poisoned g = true := hq
        rw [hp g hm] at this
        cases this
    · intro t' j c hd
      rcases now_cases hd with ⟨_, hd⟩ | ⟨_, hd⟩
      · cases hd
      · exact h.crash t' j c hd
  | @refuse t i a g₀ ht htr hwhy =>
    have hc := h.call t i a (by rw [ht]; rfl)
    have hpd := h.pend t i a (by rw [ht]; rfl)
    have hcall : ∀ t', ((σ.now t (.leaving i a (P.busy a))).doing t').call = (σ.doing t').call := by
      intro t'
      rw [now_doing]
      split
      · rename_i e; rw [e, ht]; rfl
      · rfl
    have hov : Overlapped σ.trace i (fun c => g₀ ∈ P.holds c) := by
      have key : ∀ j c, j ≠ i → Event.invoke j c ∈ σ.trace → g₀ ∈ P.holds c → (∀ r, Event.returns j r ∉ σ.trace) →
          Overlapped σ.trace i (fun c => g₀ ∈ P.holds c) := by
        intro j c h1 h2 hg h3
        refine ⟨j, c, h1, h2, hg, ?_, ?_⟩
        · rintro ⟨r, a', hs⟩
          exact hc.2 r (hs.subset (by simp))
        · rintro ⟨r, a', hs⟩
          exact h3 r (hs.subset (by simp))
      rcases hwhy with hq | ⟨u, j, c, hu, hcu, hg⟩
      · obtain ⟨_, ⟨j, c, hg, h4, h5, h6⟩, _⟩ := h.pois g₀ hq
        refine key j c ?_ h4 hg h5
        rintro rfl
        exact h6 t a (by rw [ht]; rfl)
      · refine key j c ?_ (h.call u j c hcu).1 hg (h.call u j c hcu).2
        rintro rfl
        exact hu (h.uniq u t j c a hcu (by rw [ht]; rfl))
    refine ⟨l ++ [⟨i, a, P.busy a, true⟩], y, o, .refused h.seq (by rw [htr]; nofun),
      h.ex.takes ⟨i, a, P.busy a, true⟩ hc.1 hpd, h.ids, h.named,
      fun t' j c hc => h.call t' j c ((hcall t').symm.trans hc),
      fun t1 t2 j a1 a2 h1 h2 => h.uniq t1 t2 j a1 a2 ((hcall t1).symm.trans h1) ((hcall t2).symm.trans h2),
      ?_, ?_, ?_, ?_, ?_, ?_, ?_, ?_⟩
    · intro t' j a' hj
      rw [now_doing] at hj
      split at hj <;> rename_i e
      · cases hj
      · rw [List.map_append, List.mem_append, not_or]
        refine ⟨h.pend t' j a' hj, ?_⟩
        simp only [List.map_cons, List.map_nil, List.mem_singleton]
        rintro rfl
        exact e (h.uniq t' t j a' a (Doing.call_of_pending hj) (by rw [ht]; rfl))
    · intro t' j a' rest hd
      rcases now_cases hd with ⟨_, hd⟩ | ⟨_, hd⟩
      · cases hd
      · exact h.ins t' j a' rest hd
    · intro t' j a' r hd
      rcases now_cases hd with ⟨_, hd⟩ | ⟨_, hd⟩
      · cases hd
        exact ⟨⟨i, a, P.busy a, true⟩, by simp, rfl, rfl⟩
      · obtain ⟨d, hd1, hd2⟩ := h.leave t' j a' r hd
        exact ⟨d, by simp [hd1], hd2⟩
    · intro g t' hg
      obtain ⟨j, a', rest, h1, h2⟩ := h.own g t' hg
      refine ⟨j, a', rest, ?_, h2⟩
      rw [now_doing, if_neg]
      · exact h1
      · rintro rfl; rw [ht] at h1; cases h1
    · intro g hg hn
      refine h.free g hg (fun u j c rest hd => hn u j c rest ?_)
      rw [now_doing, if_neg]
      · exact hd
      · rintro rfl; rw [ht] at hd; cases hd
    · intro g hq
      obtain ⟨h1, ⟨i1, a1, g1, e1⟩, i2, a2, p2, e2, r2⟩ := h.pois g hq
      exact ⟨h1, ⟨i1, a1, g1, hend _ _ e1⟩, i2, a2, p2, hend _ _ e2, r2⟩
    · intro d hd hr
      simp only [List.mem_append, List.mem_singleton] at hd
      rcases hd with hd | rfl
      · exact h.ref d hd hr
      · exact ⟨g₀, htr, hov⟩
    · intro t' j c hd
      rcases now_cases hd with ⟨_, hd⟩ | ⟨_, hd⟩
      · cases hd
      · exact h.crash t' j c hd
  | @poisoned t i a g₀ l₁ l₂ ht hl hf₀ hq₀ =>
    have hc := h.call t i a (by rw [ht]; rfl)
    refine ⟨l, y, o, h.seq, h.ex, h.ids, h.named, ?_, ?_, ?_, ?_, ?_, ?_, ?_, ?_, h.ref, ?_⟩
    · intro t' j a' hj
      rw [now_doing] at hj
      split at hj <;> rename_i e
      · cases hj
      · exact h.call t' j a' hj
    · intro t1 t2 j a1 a2 h1 h2
      rw [now_doing] at h1
      split at h1 <;> rename_i e1
      · cases h1
      · rw [now_doing] at h2
        split at h2 <;> rename_i e2
        · cases h2
        · exact h.uniq t1 t2 j a1 a2 h1 h2
    · intro t' j a' hj
      rw [now_doing] at hj
      split at hj <;> rename_i e
      · cases hj
      · exact h.pend t' j a' hj
    · intro t' j a' rest hd
      rcases now_cases hd with ⟨_, hd⟩ | ⟨_, hd⟩
      · cases hd
      · exact h.ins t' j a' rest hd
    · intro t' j a' r hd
      rcases now_cases hd with ⟨_, hd⟩ | ⟨_, hd⟩
      · cases hd
      · exact h.leave t' j a' r hd
    · intro g t' hg
      obtain ⟨j, a', rest, h1, h2⟩ := h.own g t' hg
      refine ⟨j, a', rest, ?_, h2⟩
      rw [now_doing, if_neg]
      · exact h1
      · rintro rfl; rw [ht] at h1; cases h1
    · intro g hg hn
      simp only [now_poisoned] at hg
      split at hg
      · cases hg
      refine h.free g hg (fun u j c rest hd => hn u j c rest ?_)
      rw [now_doing, if_neg]
      · exact hd
      · rintro rfl; rw [ht] at hd; cases hd
    · intro g hq
      have hm : ∀ g, σ.poisoned g = true → (if g ∈ l₁ then true else σ.poisoned g) = true := by
        intro g hg; split <;> first | rfl | exact hg
      by_cases e : g ∈ l₁
      · obtain ⟨_, _, i2, a2, p2, e2, r2⟩ := h.pois g₀ hq₀
        refine ⟨(hf₀ g e).1, ⟨i, a, P.locked a g (by rw [hl]; simp [e]), hc.1, hc.2, ?_⟩, i2, a2, hm _ p2, hend _ _ e2, r2⟩
        intro t' c hc'
        rw [now_doing] at hc'
        split at hc' <;> rename_i e'
        · cases hc'
        · exact e' (h.uniq t' t i c a hc' (by rw [ht]; rfl))
      · simp only [now_poisoned] at hq
        rw [if_neg e] at hq
        obtain ⟨h1, ⟨i1, a1, g1, e1⟩, i2, a2, p2, e2, r2⟩ := h.pois g hq
        exact ⟨h1, ⟨i1, a1, g1, hend _ _ e1⟩, i2, a2, hm _ p2, hend _ _ e2, r2⟩
    · intro t' j c hd
      have hm : ∀ g, σ.poisoned g = true → (if g ∈ l₁ then true else σ.poisoned g) = true := by
        intro g hg; split <;> first | rfl | exact hg
      rcases now_cases hd with ⟨_, hd⟩ | ⟨_, hd⟩
      · cases hd
        exact Or.inl ⟨g₀, by rw [hl]; simp, hm _ hq₀⟩
      · rcases h.crash t' j c hd with ⟨g, h1, h2⟩ | ⟨h1, h2⟩
        · exact Or.inl ⟨g, h1, hm _ h2⟩
        · exact Or.inr ⟨hm _ h1, h2⟩
  | @access t i a f k ht =>
    obtain ⟨hown, w, hw, hr⟩ := h.ins t i a _ ht
    have hcall : ∀ t', ((σ.now t (.inside i a (k (σ.data (P.guard a))))).doing t').call = (σ.doing t').call := by
      intro t'
      rw [now_doing]
      split
      · rename_i e; rw [e, ht]; rfl
      · rfl
    have hpend : ∀ t', ((σ.now t (.inside i a (k (σ.data (P.guard a))))).doing t').pending = (σ.doing t').pending := by
      intro t'
      rw [now_doing]
      split
      · rename_i e; rw [e, ht]; rfl
      · rfl
    refine ⟨l, y, o, h.seq, h.ex, h.ids, h.named, fun t' j c hc => h.call t' j c ((hcall t').symm.trans hc),
      fun t1 t2 j a1 a2 h1 h2 => h.uniq t1 t2 j a1 a2 ((hcall t1).symm.trans h1) ((hcall t2).symm.trans h2),
      fun t' j c hc => h.pend t' j c ((hpend t').symm.trans hc), ?_, ?_, ?_, ?_, ?_, h.ref, ?_⟩
    · intro t' j a' rest hd
      rcases now_cases hd with ⟨e, hd⟩ | ⟨e, hd⟩
      · cases hd
        refine ⟨fun g hg => by rw [e]; exact hown g hg, w ++ (f (σ.data (P.guard a))).2, ?_, ?_⟩
        · simp [hw]
        · simp only [now_data, put_same]
          rw [hr]
          unfold after
          simp only [Body.run]
          cases (k (σ.data (P.guard a))).run (f (σ.data (P.guard a))).1 <;> simp
      · obtain ⟨h1, w', h2, h3⟩ := h.ins t' j a' rest hd
        have hne : P.guard a' ≠ P.guard a := by
          intro e'
          have := h1 _ (P.guarded a')
          rw [e', hown _ (P.guarded a)] at this
          exact e (Option.some.inj this).symm
        refine ⟨h1, w', ?_, ?_⟩
        · simp only [now_outs]; rw [put_ne _ _ hne]; exact h2
        · simp only [now_data]; rw [put_ne _ _ hne]; exact h3
    · intro t' j a' r hd
      rcases now_cases hd with ⟨_, hd⟩ | ⟨_, hd⟩
      · cases hd
      · exact h.leave t' j a' r hd
    · intro g t' hg
      obtain ⟨j, a', rest, h1, h2⟩ := h.own g t' hg
      by_cases e : t' = t
      · subst e
        rw [ht] at h1
        cases h1
        exact ⟨i, a, _, by simp; rfl, h2⟩
      · exact ⟨j, a', rest, by simp [e, h1], h2⟩
    · intro g hg hn
      have hne : P.guard a ≠ g := hn t i a (k (σ.data (P.guard a))) (by simp)
      simp only [now_data, now_outs]
      rw [put_ne _ _ hne.symm, put_ne _ _ hne.symm]
      refine h.free g hg (fun u j c rest hd => ?_)
      by_cases e : u = t
      · subst e; rw [ht] at hd; cases hd; exact hne
      · exact hn u j c rest (by simp [e, hd])
    · intro g hq
      obtain ⟨h1, ⟨i1, a1, g1, e1⟩, i2, a2, p2, e2, r2⟩ := h.pois g hq
      exact ⟨h1, ⟨i1, a1, g1, hend _ _ e1⟩, i2, a2, p2, hend _ _ e2, r2⟩
    · intro t' j c hd
      rcases now_cases hd with ⟨_, hd⟩ | ⟨_, hd⟩
      · cases hd
      · exact h.crash t' j c hd
  | @release t i a r ht =>
    obtain ⟨hown, w, hw, hr⟩ := h.ins t i a _ ht
    have hc := h.call t i a (by rw [ht]; rfl)
    have hpd := h.pend t i a (by rw [ht]; rfl)
    have hr' : (P.code a).run (y (P.guard a)) = .ok (r, σ.data (P.guard a), w) := by
      rw [hr]; simp [after, Body.run]
    have hcall : ∀ t', ((σ.now t (.leaving i a r)).doing t').call = (σ.doing t').call := by
      intro t'
      rw [now_doing]
      split
      · rename_i e; rw [e, ht]; rfl
      · rfl
    have hpn : ∀ g, σ.poisoned g = true → g ≠ P.guard a := by
      rintro g hq rfl
      have := hown _ (P.guarded a)
      rw [(h.pois _ hq).1] at this
      cases this
    refine ⟨l ++ [⟨i, a, r, false⟩], put y (P.guard a) (σ.data (P.guard a)), put o (P.guard a) (o (P.guard a) ++ w),
      .done h.seq hr', h.ex.takes ⟨i, a, r, false⟩ hc.1 hpd, h.ids, h.named,
      fun t' j c hc => h.call t' j c ((hcall t').symm.trans hc),
      fun t1 t2 j a1 a2 h1 h2 => h.uniq t1 t2 j a1 a2 ((hcall t1).symm.trans h1) ((hcall t2).symm.trans h2),
      ?_, ?_, ?_, ?_, ?_, ?_, ?_, ?_⟩
    · intro t' j a' hj
      rw [now_doing] at hj
      split at hj <;> rename_i e
      · cases hj
      · rw [List.map_append, List.mem_append, not_or]
        refine ⟨h.pend t' j a' hj, ?_⟩
        simp only [List.map_cons, List.map_nil, List.mem_singleton]
        rintro rfl
        exact e (h.uniq t' t j a' a (Doing.call_of_pending hj) (by rw [ht]; rfl))
    · intro t' j a' rest hd
      rcases now_cases hd with ⟨_, hd⟩ | ⟨e, hd⟩
      · cases hd
      · obtain ⟨h1, w', h2, h3⟩ := h.ins t' j a' rest hd
        have hnh : ∀ g, g ∈ P.holds a' → g ∉ P.holds a := by
          intro g hg hm
          have := h1 g hg
          rw [hown g hm] at this
          exact e (Option.some.inj this).symm
        have hne : P.guard a' ≠ P.guard a := fun e' => hnh _ (P.guarded a') (e' ▸ P.guarded a)
        refine ⟨fun g hg => by simp only [now_owner]; rw [if_neg (hnh g hg)]; exact h1 g hg, w', ?_, ?_⟩
        · rw [put_ne _ _ hne]; exact h2
        · rw [put_ne _ _ hne]; exact h3
    · intro t' j a' r' hd
      rcases now_cases hd with ⟨_, hd⟩ | ⟨_, hd⟩
      · cases hd
        exact ⟨⟨i, a, r, false⟩, by simp, rfl, rfl⟩
      · obtain ⟨d, hd1, hd2⟩ := h.leave t' j a' r' hd
        exact ⟨d, by simp [hd1], hd2⟩
    · intro g t' hg
      simp only [now_owner] at hg
      split at hg
      · cases hg
      · rename_i hm
        obtain ⟨j, a', rest, h1, h2⟩ := h.own g t' hg
        refine ⟨j, a', rest, ?_, h2⟩
        rw [now_doing, if_neg]
        · exact h1
        · rintro rfl; rw [ht] at h1; cases h1; exact hm h2
    · intro g hg hn
      by_cases e : g = P.guard a
      · subst e
        simp only [now_data, now_outs, put_same]
        exact ⟨trivial, hw⟩
      · rw [put_ne _ _ e, put_ne _ _ e]
        refine h.free g hg (fun u j c rest hd => ?_)
        by_cases e' : u = t
        · subst e'; rw [ht] at hd; cases hd; exact fun e'' => e e''.symm
        · exact hn u j c rest (by simp [e', hd])
    · intro g hq
      obtain ⟨h1, ⟨i1, a1, g1, e1⟩, i2, a2, p2, e2, r2⟩ := h.pois g hq
      refine ⟨?_, ⟨i1, a1, g1, hend _ _ e1⟩, i2, a2, p2, hend _ _ e2, ?_⟩
      · simp only [now_owner]; split <;> first | rfl | exact h1
      · rw [put_ne _ _ (hpn _ p2)]
        exact r2
    · intro d hd hr
      simp only [List.mem_append, List.mem_singleton] at hd
      rcases hd with hd | rfl
      · exact h.ref d hd hr
      · cases hr
    · intro t' j c hd
      rcases now_cases hd with ⟨_, hd⟩ | ⟨_, hd⟩
      · cases hd
      · rcases h.crash t' j c hd with h1 | ⟨h1, h2⟩
        · exact Or.inl h1
        · refine Or.inr ⟨h1, ?_⟩
          rw [put_ne _ _ (hpn _ h1)]
          exact h2
  | @panic t i a ht =>
    obtain ⟨hown, w, hw, hr⟩ := h.ins t i a _ ht
    have hc := h.call t i a (by rw [ht]; rfl)
    have hr' : (P.code a).run (y (P.guard a)) = .panic := by rw [hr]; rfl
    refine ⟨l, y, o, h.seq, h.ex, h.ids, h.named, ?_, ?_, ?_, ?_, ?_, ?_, ?_, ?_, h.ref, ?_⟩
    · intro t' j a' hj
      rw [now_doing] at hj
      split at hj <;> rename_i e
      · cases hj
      · exact h.call t' j a' hj
    · intro t1 t2 j a1 a2 h1 h2
      rw [now_doing] at h1
      split at h1 <;> rename_i e1
      · cases h1
      · rw [now_doing] at h2
        split at h2 <;> rename_i e2
        · cases h2
        · exact h.uniq t1 t2 j a1 a2 h1 h2
    · intro t' j a' hj
      rw [now_doing] at hj
      split at hj <;> rename_i e
      · cases hj
      · exact h.pend t' j a' hj
    · intro t' j a' rest hd
      rcases now_cases hd with ⟨_, hd⟩ | ⟨e, hd⟩
      · cases hd
      · obtain ⟨h1, h2⟩ := h.ins t' j a' rest hd
        refine ⟨fun g hg => ?_, h2⟩
        simp only [now_owner]
        rw [if_neg]
        · exact h1 g hg
        · intro hm
          have := h1 g hg
          rw [hown g hm] at this
          exact e (Option.some.inj this).symm
    · intro t' j a' r' hd
      rcases now_cases hd with ⟨_, hd⟩ | ⟨_, hd⟩
      · cases hd
      · exact h.leave t' j a' r' hd
    · intro g t' hg
      simp only [now_owner] at hg
      split at hg
      · cases hg
      · rename_i hm
        obtain ⟨j, a', rest, h1, h2⟩ := h.own g t' hg
        refine ⟨j, a', rest, ?_, h2⟩
        rw [now_doing, if_neg]
        · exact h1
        · rintro rfl; rw [ht] at h1; cases h1; exact hm h2
    · intro g hg hn
      simp only [now_poisoned] at hg
      split at hg
      · cases hg
      · rename_i hm
        refine h.free g hg (fun u j c rest hd => ?_)
        by_cases e' : u = t
        · subst e'; rw [ht] at hd; cases hd; rintro rfl; exact hm (P.guarded _)
        · exact hn u j c rest (by simp [e', hd])
    · intro g hq
      by_cases e : g ∈ P.holds a
      · have hed : Ended (({ σ with
            owner := fun g => if g ∈ P.holds a then none else σ.owner g
            poisoned := fun g => if g ∈ P.holds a then true else σ.poisoned g } : Shared P).now t (.crashed i a)) i a := by
          refine ⟨hc.1, hc.2, ?_⟩
          intro t' c hc'
          rw [now_doing] at hc'
          split at hc' <;> rename_i e
          · cases hc'
          · exact e (h.uniq t' t i c a hc' (by rw [ht]; rfl))
        exact ⟨by simp [e], ⟨i, a, e, hed⟩, i, a, by simp [P.guarded a], hed, hr'⟩
      · simp only [now_poisoned] at hq
        rw [if_neg e] at hq
        obtain ⟨h1, ⟨i1, a1, g1, e1⟩, i2, a2, p2, e2, r2⟩ := h.pois g hq
        refine ⟨by simp only [now_owner]; rw [if_neg e]; exact h1, ⟨i1, a1, g1, hend _ _ e1⟩, i2, a2, ?_, hend _ _ e2, r2⟩
        simp only [now_poisoned]; split <;> first | rfl | exact p2
    · intro t' j c hd
      rcases now_cases hd with ⟨_, hd⟩ | ⟨_, hd⟩
      · cases hd
        exact Or.inr ⟨by simp [P.guarded a], hr'⟩
      · rcases h.crash t' j c hd with ⟨g, h1, h2⟩ | ⟨h1, h2⟩
        · refine Or.inl ⟨g, h1, ?_⟩
          simp only [now_poisoned]; split <;> first | rfl | exact h2
        · refine Or.inr ⟨?_, h2⟩
          simp only [now_poisoned]; split <;> first | rfl | exact h1
  | @«return» t i a r ht =>
    have hc := h.call t i a (by rw [ht]; rfl)
    refine ⟨l, y, o, h.seq, h.ex.return i r (h.leave t i a r ht), ?_, ?_, ?_, ?_, ?_, ?_, ?_, ?_, ?_, ?_, ?_, ?_⟩
    · intro j a hj
      simp only [now_trace, List.mem_append, List.mem_singleton, reduceCtorEq, or_false] at hj
      exact h.ids j a hj
    · intro j a1 a2 h1 h2
      simp only [now_trace, List.mem_append, List.mem_singleton, reduceCtorEq, or_false] at h1 h2
      exact h.named j a1 a2 h1 h2
    · intro t' j a' hj
      rw [now_doing] at hj
      split at hj <;> rename_i e
      · cases hj
      · obtain ⟨h1, h2⟩ := h.call t' j a' hj
        refine ⟨by simp [h1], fun r' hr' => ?_⟩
        simp only [now_trace, List.mem_append, List.mem_singleton, Event.returns.injEq] at hr'
        rcases hr' with hr' | ⟨rfl, _⟩
        · exact h2 r' hr'
        · exact e (h.uniq t' t j a' a hj (by rw [ht]; rfl))
    · intro t1 t2 j a1 a2 h1 h2
      rw [now_doing] at h1
      split at h1 <;> rename_i e1
      · cases h1
      · rw [now_doing] at h2
        split at h2 <;> rename_i e2
        · cases h2
        · exact h.uniq t1 t2 j a1 a2 h1 h2
    · intro t' j a' hj
      rw [now_doing] at hj
      split at hj <;> rename_i e
      · cases hj
      · exact h.pend t' j a' hj
    · intro t' j a' rest hd
      rcases now_cases hd with ⟨_, hd⟩ | ⟨_, hd⟩
      · cases hd
      · exact h.ins t' j a' rest hd
    · intro t' j a' r' hd
      rcases now_cases hd with ⟨_, hd⟩ | ⟨_, hd⟩
      · cases hd
      · exact h.leave t' j a' r' hd
    · intro g t' hg
      obtain ⟨j, a', rest, h1, h2⟩ := h.own g t' hg
      refine ⟨j, a', rest, ?_, h2⟩
      rw [now_doing, if_neg]
      · exact h1
      · rintro rfl; rw [ht] at h1; cases h1
    · intro g hg hn
      refine h.free g hg (fun u j c rest hd => hn u j c rest ?_)
      rw [now_doing, if_neg]
      · exact hd
      · rintro rfl; rw [ht] at hd; cases hd
    · intro g hq
      obtain ⟨h1, ⟨i1, a1, g1, e1⟩, i2, a2, p2, e2, r2⟩ := h.pois g hq
      exact ⟨h1, ⟨i1, a1, g1, hend _ _ e1⟩, i2, a2, p2, hend _ _ e2, r2⟩
    · intro d hd hr
      obtain ⟨g, hg, ho⟩ := h.ref d hd hr
      exact ⟨g, hg, ho.mono ⟨_, h.ex.made d hd⟩ (by nofun)⟩
    · intro t' j c hd
      rcases now_cases hd with ⟨_, hd⟩ | ⟨_, hd⟩
      · cases hd
      · exact h.crash t' j c hd

theorem threads_inv (x : (g : G) → X g) (σ : Shared P) (h : TReaches (Shared.init P x) σ) :
    ∃ l y o, ThInv x σ l y o := by
  induction h with
  | refl => exact ⟨_, _, _, ThInv.init x⟩
  | step _ hs ih =>
    obtain ⟨l, y, o, hi⟩ := ih
    exact ThInv.step x _ _ l y o hi hs

/-- C89 for any program: however many threads make calls, and however their accesses are interleaved, the calls have
the effects, transmissions and results they have when made one at a time, in an order that respects the order in which
they were made; data whose mutex is free is as this order left it. A call is refused only if it may be and overlapped
with another call that holds the mutex it tries. When a mutex is poisoned, a call that locks it has been made and never
returns, and some call panics after these calls, and the data that one touches as it was before it is all that any call
has seen. A thread crashes only in such a call, or when it locks a poisoned mutex. -/
theorem C89_critical_sections (x : (g : G) → X g) (σ : Shared P) (h : TReaches (Shared.init P x) σ) :
    ∃ l y o, OneByOne P x l y o ∧ ExplainsCalls l σ.trace ∧
      (∀ d ∈ l, d.refused = true → ∃ g, P.tries d.call = some g ∧ Overlapped σ.trace d.id (fun c => g ∈ P.holds c)) ∧
      (∀ g, σ.owner g = none → σ.poisoned g = false → σ.data g = y g ∧ σ.outs g = o g) ∧
      (∀ g, σ.poisoned g = true →
        (∃ i a, g ∈ P.holds a ∧ Event.invoke i a ∈ σ.trace ∧ ∀ r, Event.returns i r ∉ σ.trace) ∧
        ∃ i a, Event.invoke i a ∈ σ.trace ∧ (∀ r, Event.returns i r ∉ σ.trace) ∧
          (P.code a).run (y (P.guard a)) = .panic) ∧
      (∀ t i a, σ.doing t = .crashed i a → (∃ g ∈ P.locks a, σ.poisoned g = true) ∨
        (σ.poisoned (P.guard a) = true ∧ (P.code a).run (y (P.guard a)) = .panic)) := by
  obtain ⟨l, y, o, hi⟩ := threads_inv x σ h
  refine ⟨l, y, o, hi.seq, hi.ex, hi.ref, ?_, ?_, ?_⟩
  · intro g ho hp
    refine hi.free g hp (fun t i a rest hd e => ?_)
    have := (hi.ins t i a rest hd).1 g (e ▸ P.guarded a)
    rw [ho] at this
    cases this
  · intro g hg
    obtain ⟨_, ⟨i1, a1, g1, e1⟩, i2, a2, _, e2, r2⟩ := hi.pois g hg
    exact ⟨⟨i1, a1, g1, e1.1, e1.2.1⟩, i2, a2, e2.1, e2.2.1, r2⟩
  · intro t i a hd
    exact hi.crash t i a hd

/-- An access changes what is left to do. -/
theorem Body.access_ne {X O R : Type} (b : Body X O R) :
    ∀ f k x, b = .access f k → k x ≠ b := by
  induction b with
  | ret r => nofun
  | panic => nofun
  | access f k ih =>
    intro f' k' x h e
    cases h
    exact ih x f k x e rfl

/-- The first element with a property. -/
theorem first_of {G : Type} (p : G → Bool) (l : List G) (h : ∃ g ∈ l, p g = true) :
    ∃ l₁ g l₂, l = l₁ ++ g :: l₂ ∧ p g = true ∧ ∀ g' ∈ l₁, p g' = false := by
  induction l with
  | nil => obtain ⟨g, hg, _⟩ := h; cases hg
  | cons a l ih =>
    cases ha : p a with
    | true => exact ⟨[], a, l, rfl, ha, by simp⟩
    | false =>
      obtain ⟨g, hg, hp⟩ := h
      rcases List.mem_cons.mp hg with rfl | hg
      · rw [ha] at hp; cases hp
      obtain ⟨l₁, g', l₂, e, h1, h2⟩ := ih ⟨g, hg, hp⟩
      refine ⟨a :: l₁, g', l₂, by rw [e]; rfl, h1, fun x hx => ?_⟩
      rcases List.mem_cons.mp hx with rfl | hx
      · exact ha
      · exact h2 x hx

/-- A thread that has made a call can go on, or the thread holding a mutex it waits for can. -/
theorem threads_progress (x : (g : G) → X g) (σ : Shared P) (h : TReaches (Shared.init P x) σ) (t i : Nat) (a : A)
    (hlt : ∀ g ∈ P.holds a, g ∈ P.locks a ∨ P.tries a = some g) (hc : (σ.doing t).call = some (i, a)) :
    ∃ u τ, Moves u σ τ ∧ (u = t ∨ ∃ g ∈ P.holds a, σ.owner g = some u) := by
  obtain ⟨l, y, o, inv⟩ := threads_inv x σ h
  have other : ∀ (σ' : Shared P) (hd : σ'.doing = σ.doing) (u : Nat) (d : Doing A R O X P.guard) (v : Nat), v ≠ u →
      (σ'.now u d).doing v = σ.doing v := by
    intro σ' hd u d v hv
    rw [now_doing, if_neg hv, hd]
  have ins : ∀ u i a rest, σ.doing u = .inside i a rest → ∃ τ, Moves u σ τ := by
    intro u i a rest hu
    cases rest with
    | ret r => exact ⟨_, .release hu, by simp [hu], other _ rfl u _⟩
    | access f k =>
      refine ⟨_, .access hu, ?_, other _ rfl u _⟩
      rw [now_doing, if_pos rfl, hu]
      intro e
      injection e with _ _ e
      exact Body.access_ne _ f k _ rfl e
    | panic => exact ⟨_, .panic hu, by simp [hu], other _ rfl u _⟩
  cases hd : σ.doing t with
  | idle => rw [hd] at hc; cases hc
  | crashed j c => rw [hd] at hc; cases hc
  | leaving j c r => exact ⟨t, _, ⟨.return hd, by simp [hd], other _ rfl t _⟩, Or.inl rfl⟩
  | inside j c rest =>
    obtain ⟨τ, hτ⟩ := ins t j c rest hd
    exact ⟨t, τ, hτ, Or.inl rfl⟩
  | waiting j c =>
    rw [hd] at hc
    cases hc
    by_cases ho : ∃ g ∈ P.holds a, ∃ u, σ.owner g = some u
    · obtain ⟨g, hg, u, hu⟩ := ho
      obtain ⟨i', a', rest, hu', _⟩ := inv.own _ u hu
      obtain ⟨τ, hτ⟩ := ins u i' a' rest hu'
      exact ⟨u, τ, hτ, Or.inr ⟨g, hg, hu⟩⟩
    · by_cases hp : ∃ g ∈ P.holds a, σ.poisoned g = true
      · obtain ⟨g, hg, hp⟩ := hp
        rcases hlt g hg with hl | hl
        · obtain ⟨l₁, g', l₂, e, hp', hf⟩ := first_of (fun g => σ.poisoned g) (P.locks a) ⟨g, hl, hp⟩
          refine ⟨t, _, ⟨.poisoned l₁ l₂ hd e (fun g₁ h₁ => ⟨?_, hf g₁ h₁⟩) hp', by simp [hd], other _ rfl t _⟩, Or.inl rfl⟩
          cases he : σ.owner g₁ with
          | none => rfl
          | some u => exact absurd ⟨g₁, P.locked a g₁ (by rw [e]; simp [h₁]), u, he⟩ ho
        · exact ⟨t, _, ⟨.refuse hd hl (Or.inl hp), by simp [hd], other _ rfl t _⟩, Or.inl rfl⟩
      · refine ⟨t, _, ⟨.acquire hd (fun g hg => ?_) (fun g hg => ?_), by simp [hd], other _ rfl t _⟩, Or.inl rfl⟩
        · cases he : σ.owner g with
          | none => rfl
          | some u => exact absurd ⟨g, hg, u, he⟩ ho
        · cases he : σ.poisoned g with
          | false => rfl
          | true => exact absurd ⟨g, hg, he⟩ hp

/-- What a thread inside a critical section does in one step of all threads, if it stays inside. -/
theorem inside_step {σ τ : Shared P} (hs : TStep σ τ) {t i : Nat} {a : A} {rest : Body (X (P.guard a)) O R}
    (hd : σ.doing t = .inside i a rest) (h' : ∃ i a rest, τ.doing t = .inside i a rest) :
    τ.doing t = σ.doing t ∨ ∃ g k y, rest = .access g k ∧ τ.doing t = .inside i a (k y) := by
  obtain ⟨i', a', rest', h'⟩ := h'
  cases hs with
  | @access u j b g k hu =>
    simp only [now_doing] at h' ⊢
    by_cases ht : t = u
    · subst ht
      rw [if_pos rfl]
      have e := hd.symm.trans hu
      cases e
      exact Or.inr ⟨g, k, _, rfl, rfl⟩
    · rw [if_neg ht]; exact Or.inl rfl
  | _ =>
    simp only [now_doing] at h' ⊢
    split at h'
    · rename_i ht
      subst ht
      simp_all
    · rename_i ht
      rw [if_neg ht]; exact Or.inl rfl

/-- C89, no call keeps a mutex for ever: in an infinite execution, a thread that never releases its mutex has stopped being
scheduled. -/
theorem C89_finite (f : Nat → Shared P) (hf : ∀ n, TStep (f n) (f (n + 1))) (t N : Nat)
    (hin : ∀ n, N ≤ n → ∃ i a rest, (f n).doing t = .inside i a rest) :
    ∃ M, N ≤ M ∧ ∀ n, M ≤ n → (f n).doing t = (f M).doing t := by
  obtain ⟨i, a, rest, h0⟩ := hin N (Nat.le_refl N)
  have still : ∀ N rest, (∀ n, N ≤ n → ∃ i a rest, (f n).doing t = .inside i a rest) → (f N).doing t = .inside i a rest →
      (∀ n, N ≤ n → (f n).doing t = (f N).doing t) ∨
      ∃ m g k y, N ≤ m ∧ rest = .access g k ∧ (f m).doing t = .inside i a (k y) := by
    intro N rest hin h0
    by_cases hx : ∃ m g k y, N ≤ m ∧ rest = .access g k ∧ (f m).doing t = .inside i a (k y)
    · exact Or.inr hx
    · left
      have key : ∀ d, (f (N + d)).doing t = (f N).doing t := by
        intro d
        induction d with
        | zero => rfl
        | succ d ih =>
          rcases inside_step (hf (N + d)) (ih.trans h0) (hin _ (by omega)) with h | ⟨g, k, y, h1, h2⟩
          · exact h.trans ih
          · exact absurd ⟨_, g, k, y, by omega, h1, h2⟩ hx
      intro n hn
      have := key (n - N)
      rwa [show N + (n - N) = n by omega] at this
  induction rest generalizing N with
  | ret r =>
    rcases still N _ hin h0 with h | ⟨m, g, k, y, _, h, _⟩
    · exact ⟨N, Nat.le_refl _, h⟩
    · cases h
  | panic =>
    rcases still N _ hin h0 with h | ⟨m, g, k, y, _, h, _⟩
    · exact ⟨N, Nat.le_refl _, h⟩
    · cases h
  | access g k ih =>
    rcases still N _ hin h0 with h | ⟨m, g', k', y, hm, h, hy⟩
    · exact ⟨N, Nat.le_refl _, h⟩
    · cases h
      obtain ⟨M, hM, hM'⟩ := ih y m (fun n hn => hin n (by omega)) hy
      exact ⟨M, by omega, hM'⟩

/-! ## Hosts -/
variable {S : Type}

/-- Any way of executing the calls of a host access by access. -/
def hostProgram (code : (a : ApiCall S) → Body (Guarded S a.guard) Out Result) :
    Program (ApiCall S) Guard Out Result (Guarded S) :=
  ⟨ApiCall.guard, ApiCall.holds, fun a => by cases a <;> simp [ApiCall.guard, ApiCall.holds], code, ApiCall.locks,
    fun a => by cases a <;> simp [ApiCall.locks, ApiCall.holds], ApiCall.tries, ApiCall.busy⟩

/-- The data behind the mutexes of a host. -/
def Spec.guarded (h : Host S) : (g : Guard) → Guarded S g
  | .node => h.node
  | .ctrl => h.remotes

theorem Host.run_one (b : Build) (db : Database) (h : Host S) (op : HostOp S) : h.run b db [op] = h.step b db op := by
  simp only [Host.run]
  cases h.step b db op <;> simp

theorem Host.run_node (b : Build) (db : Database) (h : Host S) (ops : List (Op S)) :
    h.run b db (ops.map .node) = (h.node.run b ops >>= fun r => .ok ({ h with node := r.1 }, r.2)) := by
  induction ops generalizing h with
  | nil => rfl
  | cons op ops ih =>
    simp only [List.map_cons, Host.run, Host.step, Node.run]
    cases h.node.step b op with
    | panic => rfl
    | ok r =>
      simp only [Res.bind_ok, Res.pure_eq]
      rw [ih]
      simp only []
      cases Node.run b r.1 ops <;> simp

theorem Host.run_append (b : Build) (db : Database) (h : Host S) (l l' : List (HostOp S)) :
    h.run b db (l ++ l') = (h.run b db l >>= fun r => r.1.run b db l' >>= fun r' => .ok (r'.1, r.2 ++ r'.2)) := by
  induction l generalizing h with
  | nil => simp only [List.nil_append, Host.run, Res.bind_ok]; cases Host.run b db h l' <;> simp
  | cons op l ih =>
    simp only [List.cons_append, Host.run]
    cases h.step b db op with
    | panic => rfl
    | ok r =>
      simp only [Res.bind_ok, ih]
      cases Host.run b db r.1 l with
      | panic => rfl
      | ok r1 =>
        simp only [Res.bind_ok, Res.pure_eq]
        cases Host.run b db r1.1 l' <;> simp

/-- One call, made alone. -/
theorem effect_host (b : Build) (db : Database) (h : Host S) (a : ApiCall S) (r : Result) (y : Guarded S a.guard)
    (out : List Out) (he : a.effect b db (guarded h a.guard) = .ok (r, y, out)) :
    answer b h a = .ok r ∧ ∃ h', h.run b db (hostOps a false) = .ok (h', put (fun _ => []) a.guard out .node) ∧
      guarded h' = put (guarded h) a.guard y ∧ put (fun _ => []) a.guard out .ctrl = [] := by
  have hn : ∀ (h : Host S) (n' : Node S), guarded { h with node := n' } = put (guarded h) .node n' := by
    intro h n'
    funext g
    cases g <;> rfl
  have hc : ∀ (h : Host S) (l : List RemoteNode), guarded { h with remotes := l } = put (guarded h) .ctrl l := by
    intro h l
    funext g
    cases g <;> rfl
  have hid : ∀ (h : Host S) (g : Guard), guarded h = put (guarded h) g (guarded h g) := by
    intro h g
    funext g'
    cases g <;> cases g' <;> rfl
  cases a with
  | setProperty d c data =>
    cases he
    exact ⟨rfl, _, rfl, hn h _, rfl⟩
  | property d c =>
    cases he
    exact ⟨rfl, _, rfl, hid h _, rfl⟩
  | setRequestHandler d hd =>
    cases he
    exact ⟨rfl, _, rfl, hn h _, rfl⟩
  | startDevice d menv uenv ok =>
    obtain ⟨x, hx, he⟩ := Res.bind_eq_ok.mp he
    cases he
    refine ⟨by simp only [answer]; rw [show d.start menv uenv ok h.node = .ok x from hx]; rfl, ?_⟩
    unfold Device.start at hx
    obtain ⟨z, hz, hx⟩ := Res.bind_eq_ok.mp hx
    have hz' : h.node.start menv uenv ok = .ok z := hz
    have hx' : x.2 = z.2 := by
      split at hx <;> cases hx <;> rfl
    refine ⟨{ h with node := x.2.1 }, ?_, hn h _, rfl⟩
    rw [hostOps, Host.run_one]
    simp only [Host.step, Node.step, hz', Res.bind_ok, Res.pure_eq, hx']
    rfl
  | stopDevice d =>
    obtain ⟨x, hx, he⟩ := Res.bind_eq_ok.mp he
    cases he
    refine ⟨by simp only [answer]; rw [show d.stop h.node = .ok x from hx]; rfl, ?_⟩
    unfold Device.stop at hx
    obtain ⟨z, hz, hx⟩ := Res.bind_eq_ok.mp hx
    have hz' : h.node.stop = .ok z := hz
    have hx' : x.2 = z.2 := by
      split at hx <;> cases hx <;> rfl
    refine ⟨{ h with node := x.2 }, ?_, hn h _, rfl⟩
    rw [hostOps, Host.run_one]
    simp only [Host.step, Node.step, hz', Res.bind_ok, Res.pure_eq, hx']
    rfl
  | search code ok =>
    cases he
    refine ⟨rfl, { h with node := (h.searchObject ok code).2.1.node }, ?_, hn h _, rfl⟩
    rw [hostOps, Host.run_one]
    rfl
  | send rn msg ok =>
    cases he
    refine ⟨rfl, { h with node := (h.sendMessage ok true rn msg).2.2.1.node }, ?_, hn h _, rfl⟩
    rw [hostOps, Host.run_one]
    rfl
  | post rn msg ok =>
    cases he
    refine ⟨rfl, { h with node := (h.postMessage ok rn msg).2.2.1.node }, ?_, hn h _, rfl⟩
    rw [hostOps, Host.run_one]
    rfl
  | startController menv uenv ok =>
    obtain ⟨x, hx, he⟩ := Res.bind_eq_ok.mp he
    cases he
    unfold Host.start at hx
    obtain ⟨z, hz, hx⟩ := Res.bind_eq_ok.mp hx
    have hz' : h.node.start menv uenv ok = .ok z := hz
    have hst : h.start menv uenv ok = .ok (x.1, { h with node := x.2.1.node }, x.2.2) := by
      unfold Host.start
      rw [hz']
      simp only [Res.bind_ok]
      split at hx <;> rename_i hb <;> cases hx
      · rw [if_pos hb]; rfl
      · rw [if_neg hb]; rfl
    refine ⟨by simp only [answer]; rw [hst]; rfl, { h with node := x.2.1.node }, ?_, hn h _, rfl⟩
    rw [hostOps, Host.run_one]
    simp only [Host.step, hst, Res.bind_ok, Res.pure_eq]
    rfl
  | stopController =>
    obtain ⟨x, hx, he⟩ := Res.bind_eq_ok.mp he
    cases he
    unfold Host.stop at hx
    obtain ⟨z, hz, hx⟩ := Res.bind_eq_ok.mp hx
    have hz' : h.node.stop = .ok z := hz
    have hst : h.stop = .ok (x.1, { h with node := x.2.node }) := by
      unfold Host.stop
      rw [hz']
      simp only [Res.bind_ok]
      split at hx <;> rename_i hb <;> cases hx
      · rw [if_pos hb]; rfl
      · rw [if_neg hb]; rfl
    refine ⟨by simp only [answer]; rw [hst]; rfl, { h with node := x.2.node }, ?_, hn h _, rfl⟩
    rw [hostOps, Host.run_one]
    simp only [Host.step, hst, Res.bind_ok, Res.pure_eq]
    rfl
  | addObserver ob =>
    cases he
    exact ⟨rfl, _, rfl, hn h _, rfl⟩
  | nodes ω =>
    obtain ⟨x, hx, he⟩ := Res.bind_eq_ok.mp he
    cases he
    refine ⟨by simp only [answer, Host.nodes]; rw [show Host.nodesLoop b ω h.remotes = .ok x from hx]; rfl,
      h, rfl, hid h _, rfl⟩
  | locked ops =>
    obtain ⟨x, hx, he⟩ := Res.bind_eq_ok.mp he
    cases he
    refine ⟨rfl, { h with node := x.1 }, ?_, hn h _, rfl⟩
    rw [hostOps, Host.run_node, show h.node.run b ops = .ok x from hx]
    rfl
  | received ω ok msg =>
    obtain ⟨x, hx, he⟩ := Res.bind_eq_ok.mp he
    cases he
    refine ⟨rfl, { h with node := x.1 }, ?_, hn h _, rfl⟩
    rw [hostOps, Host.run_one]
    simp only [Host.step, Host.invoke, Bool.not_false]
    rw [show h.node.observeTry b ω ok true msg = .ok x from hx]
    rfl
  | discovered ω uuid msg =>
    obtain ⟨x, hx, he⟩ := Res.bind_eq_ok.mp he
    cases he
    refine ⟨rfl, { h with remotes := y }, ?_, hc h _, rfl⟩
    rw [hostOps, Host.run_one]
    simp only [Host.step, Host.invoke, Bool.not_false]
    rw [show observeController b db ω uuid true h.remotes msg = .ok y from hx]
    rfl

/-- A refused call does nothing. -/
theorem refused_host (b : Build) (db : Database) (h : Host S) (a : ApiCall S) (ht : a.tries ≠ none) :
    a.busy = refusal a ∧ h.run b db (hostOps a true) = .ok (h, []) := by
  cases a <;> first | exact ⟨rfl, rfl⟩ | exact absurd rfl ht

/-- C89: however many threads call the methods of a host's devices and controller, and however many receiver threads
call its observers, and however the single accesses of these calls are interleaved (`code` is any code for them that
does the right thing when undisturbed): the calls that have taken effect can be put in an order, compatible with the
order in which they were made, in which, made one at a time, they have the same results and leave the same node, the
same remote nodes and the same transmissions as they did. Deliveries of messages, and `Controller::send_message`, may
instead be refused and do nothing, but only if they overlapped with another call that uses the node or the controller
they try to use. A mutex is poisoned only if a call
has panicked that panics after those calls, and then no call has seen anything of the interrupted one; the mutex of the
node or the controller is poisoned only if a call that uses it never returns. A thread has crashed only in such a call
or in one that locks a poisoned mutex, which deliveries do not. -/
theorem C89_linearizable (b : Build) (db : Database) (code : (a : ApiCall S) → Body (Guarded S a.guard) Out Result)
    (hcode : ∀ a x, (code a).run x = a.effect b db x) (h₀ : Host S) (σ : Shared (hostProgram code))
    (hσ : TReaches (Shared.init (hostProgram code) (guarded h₀)) σ) :
    ∃ l h outs, ExplainsCalls l σ.trace ∧ CallsReturn b db h₀ l ∧
      (∀ d ∈ l, d.refused = true → Overlapped σ.trace d.id (refusedFor d.call)) ∧
      h₀.run b db (l.flatMap fun d => hostOps d.call d.refused) = .ok (h, outs) ∧
      (σ.owner .node = none → σ.poisoned .node = false → σ.data .node = h.node ∧ σ.outs .node = outs) ∧
      (σ.owner .ctrl = none → σ.poisoned .ctrl = false → σ.data .ctrl = h.remotes) ∧
      (∀ g, σ.poisoned g = true →
        (∃ i a, uses g a = true ∧ Event.invoke i a ∈ σ.trace ∧ ∀ r, Event.returns i r ∉ σ.trace) ∧
        ∃ i a, Event.invoke i a ∈ σ.trace ∧ (∀ r, Event.returns i r ∉ σ.trace) ∧
          a.effect b db (guarded h a.guard) = .panic) ∧
      (∀ t i a, σ.doing t = .crashed i a → (∃ g, σ.poisoned g = true) ∧
        (a.effect b db (guarded h a.guard) = .panic ∨ delivery a = false)) := by
  obtain ⟨l, y, o, hs, hex, hov, hfree, hpois, hcrash⟩ := C89_critical_sections (guarded h₀) σ hσ
  have key : ∃ h, h₀.run b db (l.flatMap fun d => hostOps d.call d.refused) = .ok (h, o .node) ∧ guarded h = y ∧
      CallsReturn b db h₀ l := by
    clear hex hov hfree hpois hcrash
    have last : ∀ (l : List (Done (ApiCall S) Result)) (d : Done (ApiCall S) Result) (h : Host S) (outs : List Out),
        h₀.run b db (l.flatMap fun d => hostOps d.call d.refused) = .ok (h, outs) →
        (if d.refused then .ok (refusal d.call) else answer b h d.call) = .ok d.result →
        CallsReturn b db h₀ l → CallsReturn b db h₀ (l ++ [d]) := by
      intro l d h outs hr hd hl pre e post he
      rcases List.eq_nil_or_concat post with rfl | ⟨post', z, rfl⟩
      · obtain ⟨rfl, h2⟩ := List.append_inj' he (by simp)
        cases h2
        exact ⟨h, outs, hr, hd⟩
      · rw [show pre ++ e :: post'.concat z = (pre ++ e :: post') ++ [z] by simp] at he
        obtain ⟨h1, _⟩ := List.append_inj' he (by simp)
        exact hl pre e post' h1
    induction hs with
    | nil => exact ⟨h₀, rfl, rfl, fun pre d post h => by simp at h⟩
    | @done l y o i a r y' out _ hrun ih =>
      obtain ⟨h, h1, rfl, h3⟩ := ih
      have he : a.effect b db (guarded h a.guard) = .ok (r, y', out) := by
        rw [← hcode]; exact hrun
      obtain ⟨ha, h', hr, hg, _⟩ := effect_host b db h a r y' out he
      refine ⟨h', ?_, hg, last l _ h _ h1 ?_ h3⟩
      · rw [List.flatMap_append, Host.run_append, h1]
        simp only [Res.bind_ok, List.flatMap_cons, List.flatMap_nil, List.append_nil]
        rw [hr]
        simp only [Res.bind_ok]
        congr 2
        show _ = put o a.guard (o a.guard ++ out) .node
        cases a.guard <;> simp [put]
      · simpa using ha
    | @refused l y o i a _ ht ih =>
      obtain ⟨h, h1, rfl, h3⟩ := ih
      refine ⟨h, ?_, rfl, last l _ h _ h1 (by simp [← (refused_host b db h a ht).1]; rfl) h3⟩
      · rw [List.flatMap_append, Host.run_append, h1]
        simp only [Res.bind_ok, List.flatMap_cons, List.flatMap_nil, List.append_nil]
        rw [(refused_host b db h a ht).2]
        simp
  obtain ⟨h, hr, rfl, hans⟩ := key
  refine ⟨l, h, o .node, hex, hans, fun d hd hr => ?_, hr, hfree .node,
    fun h1 h2 => (hfree .ctrl h1 h2).1, ?_, ?_⟩
  · obtain ⟨g, hg, j, c, h1, h2, h3, h4⟩ := hov d hd hr
    refine ⟨j, c, h1, h2, ?_, h4⟩
    change d.call.tries = some g at hg
    change g ∈ c.holds at h3
    revert h3
    cases hc : d.call <;> rw [hc] at hg <;> cases hg <;> cases c <;>
      simp [refusedFor, usesNode, usesController, ApiCall.holds]
  · intro g hg
    obtain ⟨⟨i', a', h1, h5, h6⟩, i, a, h2, h3, h4⟩ := hpois g hg
    refine ⟨⟨i', a', ?_, h5, h6⟩, i, a, h2, h3, by rw [← hcode]; exact h4⟩
    change g ∈ a'.holds at h1
    revert h1
    cases g <;> cases a' <;> simp [uses, usesNode, usesController, ApiCall.holds]
  · intro t i a hd
    rcases hcrash t i a hd with ⟨g, h1, h2⟩ | ⟨h1, h2⟩
    · refine ⟨⟨g, h2⟩, Or.inr ?_⟩
      cases a <;> first | rfl | exact absurd h1 (by simp [hostProgram, ApiCall.locks])
    · exact ⟨⟨_, h1⟩, Or.inl (by rw [← hcode]; exact h2)⟩

/-- C89, mutual exclusion: at no time are two threads in the middle of calls that both use the node, or that both use the
controller. -/
theorem C89_exclusion (code : (a : ApiCall S) → Body (Guarded S a.guard) Out Result) (h₀ : Host S)
    (σ : Shared (hostProgram code)) (hσ : TReaches (Shared.init (hostProgram code) (guarded h₀)) σ) (t u i j : Nat)
    (a c : ApiCall S) (rest rest') (ht : σ.doing t = .inside i a rest) (hu : σ.doing u = .inside j c rest')
    (hne : t ≠ u) : ¬ (usesNode a = true ∧ usesNode c = true) ∧ ¬ (usesController a = true ∧ usesController c = true) := by
  obtain ⟨l, y, o, inv⟩ := threads_inv (guarded h₀) σ hσ
  have h1 := (inv.ins t i a rest ht).1
  have h2 := (inv.ins u j c rest' hu).1
  have key : ∀ g, g ∈ a.holds → g ∈ c.holds → False := by
    intro g ha hc
    have := (h1 g ha).symm.trans (h2 g hc)
    cases this
    exact hne rfl
  have hn : ∀ e : ApiCall S, usesNode e = true → Guard.node ∈ e.holds := by
    intro e he; cases e <;> simp_all [usesNode, ApiCall.holds]
  have hk : ∀ e : ApiCall S, usesController e = true → Guard.ctrl ∈ e.holds := by
    intro e he; cases e <;> simp_all [usesController, ApiCall.holds]
  exact ⟨fun h => key _ (hn a h.1) (hn c h.2), fun h => key _ (hk a h.1) (hk c h.2)⟩

/-- C89, after a panic: when a call that holds a mutex panics, the mutex stays poisoned, and a call that waits for it never
takes effect: in whatever step is made next it keeps waiting, or panics, or is refused; deliveries never panic, and other
calls than deliveries and `send_message` are never refused. -/
theorem C89_poisoned (code : (a : ApiCall S) → Body (Guarded S a.guard) Out Result)
    (σ τ : Shared (hostProgram code)) (hs : TStep σ τ) (g : Guard) (hp : σ.poisoned g = true) :
    τ.poisoned g = true ∧ ∀ t i (a : ApiCall S), σ.doing t = .waiting i a →
      uses g a = true →
      τ.doing t = .waiting i a ∨ (delivery a = false ∧ τ.doing t = .crashed i a) ∨
        (refusable a = true ∧ τ.doing t = .leaving i a (refusal a)) := by
  have hh : ∀ a : ApiCall S, uses g a = true →
      g ∈ a.holds := by
    intro a ha
    cases g <;> cases a <;> simp_all [uses, usesNode, usesController, ApiCall.holds]
  have keep : ∀ (σ' : Shared (hostProgram code)) (hd : σ'.doing = σ.doing) (u : Nat) d t i (a : ApiCall S), u ≠ t →
      σ.doing t = .waiting i a → (σ'.now u d).doing t = .waiting i a := by
    intro σ' hd u d t i a hne h
    rw [now_doing, if_neg (Ne.symm hne), hd, h]
  cases hs with
  | @invoke u c hu =>
    refine ⟨hp, fun t i a ha _ => Or.inl (keep _ rfl u _ t i a ?_ ha)⟩
    rintro rfl; rw [hu] at ha; cases ha
  | @acquire u j c hu ho hq =>
    refine ⟨hp, fun t i a ha hg => ?_⟩
    by_cases e : u = t
    · subst e
      rw [hu] at ha
      cases ha
      have := hq g (hh _ hg)
      rw [hp] at this
      cases this
    · exact Or.inl (keep _ rfl u _ t i a e ha)
  | @refuse u j c g' hu ht hwhy =>
    refine ⟨hp, fun t i a ha hg => ?_⟩
    by_cases e : u = t
    · subst e
      rw [hu] at ha
      cases ha
      refine Or.inr (Or.inr ⟨?_, ?_⟩)
      · cases c <;> first | rfl | cases ht
      · rw [now_doing, if_pos rfl]
        cases c <;> first | rfl | cases ht
    · exact Or.inl (keep _ rfl u _ t i a e ha)
  | @poisoned u j c g' l₁ l₂ hu hl hf hq =>
    refine ⟨by simp only [now_poisoned]; split <;> first | rfl | exact hp, fun t i a ha hg => ?_⟩
    by_cases e : u = t
    · subst e
      rw [hu] at ha
      cases ha
      refine Or.inr (Or.inl ⟨?_, by rw [now_doing, if_pos rfl]⟩)
      cases c <;> first | rfl | exact absurd hl (by simp [hostProgram, ApiCall.locks])
    · exact Or.inl (keep _ rfl u _ t i a e ha)
  | @access u j c f k hu =>
    refine ⟨hp, fun t i a ha _ => Or.inl (keep _ rfl u _ t i a ?_ ha)⟩
    rintro rfl; rw [hu] at ha; cases ha
  | @release u j c r hu =>
    refine ⟨hp, fun t i a ha _ => Or.inl (keep _ rfl u _ t i a ?_ ha)⟩
    rintro rfl; rw [hu] at ha; cases ha
  | @panic u j c hu =>
    refine ⟨?_, fun t i a ha _ => Or.inl (keep _ rfl u _ t i a ?_ ha)⟩
    · simp only [now_poisoned]
      split
      · rfl
      · exact hp
    · rintro rfl; rw [hu] at ha; cases ha
  | @«return» u j c r hu =>
    refine ⟨hp, fun t i a ha _ => Or.inl (keep _ rfl u _ t i a ?_ ha)⟩
    rintro rfl; rw [hu] at ha; cases ha

/-- C89, progress: a thread that has called a method of a device or of the controller, or delivers a message, and has not
crashed, can go on, or a thread that can go on holds a mutex it waits for. -/
theorem C89_progress (code : (a : ApiCall S) → Body (Guarded S a.guard) Out Result) (h₀ : Host S)
    (σ : Shared (hostProgram code)) (hσ : TReaches (Shared.init (hostProgram code) (guarded h₀)) σ) (t i : Nat)
    (a : ApiCall S) (hc : (σ.doing t).call = some (i, a)) :
    ∃ u τ, Moves u σ τ ∧ (u = t ∨ ∃ g, σ.owner g = some u) := by
  obtain ⟨u, τ, h1, h2⟩ := threads_progress (guarded h₀) σ hσ t i a (by
    intro g hg
    cases a <;> simp_all [hostProgram, ApiCall.holds, ApiCall.locks, ApiCall.tries]) hc
  exact ⟨u, τ, h1, h2.imp id (fun ⟨g, _, h⟩ => ⟨g, h⟩)⟩

/-- Code that does what a call has to do in one access, after having read the data in another. -/
def slowCode (b : Build) (db : Database) (a : ApiCall S) : Body (Guarded S a.guard) Out Result :=
  .access (fun x => (x, [])) fun _ =>
    .access (fun x => match a.effect b db x with
        | .ok r => (r.2.1, r.2.2)
        | .panic => (x, []))
      (fun x => match a.effect b db x with
        | .ok r => .ret r.1
        | .panic => .panic)

/-- Such code satisfies the hypothesis of `C89_linearizable`. -/
theorem slowCode_run (b : Build) (db : Database) (a : ApiCall S) (x : Guarded S a.guard) :
    (slowCode b db a).run x = a.effect b db x := by
  simp only [slowCode, Body.run]
  cases a.effect b db x with
  | panic => rfl
  | ok r => simp [Body.run]

/-- Non-vacuity: on every host, while an application thread is in the middle of `Device::set_property`, a receiver
thread hands a message to the node and a third thread asks for the property; the message is refused, and the third
thread gets the property as it is after the first one's call, even before that has returned. -/
example (b : Build) (db : Database) (h : Host S) (d : Device) (data : List UInt8) (ω : HashOrder) (ok : Nat → Bool)
    (msg : Message) :
    ∃ σ, TReaches (Shared.init (hostProgram (slowCode b db)) (guarded h)) σ ∧ σ.trace =
      [.invoke 0 (.setProperty d 0x80 data), .invoke 1 (.received ω ok msg), .invoke 2 (.property d 0x80), .returns 1 .unit,
       .returns 2 (.bytes (d.property (d.setProperty h.node 0x80 data).2 0x80)),
       .returns 0 (.bool (d.setProperty h.node 0x80 data).1)] := by
  have h0 : TReaches _ (Shared.init (hostProgram (slowCode b db)) (guarded h)) := .refl
  have h1 := h0.step (.invoke (t := 0) (.setProperty d 0x80 data) rfl)
  have h2 := h1.step (.acquire (t := 0) rfl (fun _ _ => rfl) (fun _ _ => rfl))
  have h3 := h2.step (.access (t := 0) rfl)
  have h4 := h3.step (.invoke (t := 1) (.received ω ok msg) rfl)
  have h5 := h4.step (.invoke (t := 2) (.property d 0x80) rfl)
  have h6 := h5.step (.refuse (t := 1) rfl rfl (Or.inr ⟨0, 0, _, by decide, rfl, by simp [hostProgram, ApiCall.holds]⟩))
  have h7 := h6.step (.return (t := 1) rfl)
  have h8 := h7.step (.access (t := 0) rfl)
  have h9 := h8.step (.release (t := 0) rfl)
  have h10 := h9.step (.acquire (t := 2) rfl (by intro g _; cases g <;> rfl) (fun _ _ => rfl))
  have h11 := h10.step (.access (t := 2) rfl)
  have h12 := h11.step (.access (t := 2) rfl)
  have h13 := h12.step (.release (t := 2) rfl)
  have h14 := h13.step (.return (t := 2) rfl)
  have h15 := h14.step (.return (t := 0) rfl)
  exact ⟨_, h15, rfl⟩

end Uecho
