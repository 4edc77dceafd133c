import Verif.Props.Remote
/-!
# Single operations: transaction IDs and pending posts
-/
namespace Uecho
open Spec
variable {S : Type}

/-- An operation hands at most one message to the transport. -/
def Emission (n n' : Node S) (outs : List Out) : Prop :=
  (handed outs = [] ∧ txs outs = [] ∧ n'.lastTid = n.lastTid) ∨
  ∃ g u, handed outs = [(g, u)] ∧ (∀ t ∈ txs outs, t.bytes = u.bytes) ∧
    (g.tid ≠ 0 → u = g ∧ n'.lastTid = n.lastTid) ∧
    (g.tid = 0 → u = g.setTid (n.lastTid + 1) ∧ n'.lastTid = n.lastTid + 1)

theorem Emission.none {n n' : Node S} (h : n'.lastTid = n.lastTid) : Emission n n' [] :=
  Or.inl ⟨rfl, rfl, h⟩

theorem send_bytes (ok : Nat → Bool) (m : Manager) (to : SocketAddr) (u : Message) :
    ∀ t ∈ (m.send ok to u).2, t.bytes = u.bytes := by
  rcases Manager.send_cases ok m to u with ⟨_, h⟩ | ⟨_, s, _, h⟩ <;> rw [h] <;> simp

theorem notify_bytes (ok : Nat → Bool) (m : Manager) (u : Message) :
    ∀ t ∈ (m.notify ok u).2, t.bytes = u.bytes := by
  obtain ⟨k, h, _⟩ := Manager.notify_cases ok m u
  rw [h]
  intro t ht
  obtain ⟨s, _, rfl⟩ := List.mem_map.mp ht
  rfl

theorem transmit_bytes (ok : Nat → Bool) (n : Node S) (msg res : Message) :
    ∀ t ∈ Node.transmit ok n msg res, t.bytes = (n.updateTid res).1.bytes := by
  unfold Node.transmit
  split
  · exact notify_bytes _ _ _
  · exact send_bytes _ _ _ _

/-- Handing message `g` to the transport. -/
theorem Emission.hand {n n₁ n' : Node S} {g : Message} {l : List Tx} (h1 : n₁.lastTid = n.lastTid)
    (h2 : n'.lastTid = (n₁.updateTid g).2.lastTid) (hl : ∀ t ∈ l, t.bytes = (n₁.updateTid g).1.bytes) :
    Emission n n' (.handed g (n₁.updateTid g).1 :: l.map .tx) := by
  refine Or.inr ⟨g, _, handed_handed_cons _ _ _, ?_, ?_, ?_⟩
  · rw [txs_handed_cons]; exact hl
  · intro h
    rw [h2, Node.updateTid_eq, if_neg h]
    exact ⟨rfl, h1⟩
  · intro h
    rw [h2, Node.updateTid_eq, if_pos h, h1]
    exact ⟨rfl, rfl⟩

theorem Outcome_lastTid {b : Build} {ω : HashOrder} {n n₁ : Node S} {msg : Message} {r : Option Message}
    (h : Node.Outcome b ω n msg r n₁) : n₁.lastTid = n.lastTid ∧ n₁.post = n.post ∧ n₁.nextChan = n.nextChan ∧
      n₁.transport = n.transport := by
  cases h <;> exact ⟨rfl, rfl, rfl, rfl⟩

/-- What `observe` can hand over. -/
theorem observe_emission {b : Build} {ω : HashOrder} {ok : Nat → Bool} {n n' : Node S} {msg : Message}
    {outs : List Out} (h : n.observe b ω ok msg = .ok (n', outs)) : Emission n n' outs := by
  obtain ⟨q, pouts, r, hq, hm, hres⟩ := Node.observe_first h
  have ho := Outcome_lastTid (Node.messageReceived_outcome (res := r.1) (n' := r.2) hm)
  have hq' : q.lastTid = n.lastTid ∧ txs pouts = [] ∧ handed pouts = [] := by
    rcases hq with ⟨rfl, rfl⟩ | ⟨_, rfl, h1, h2⟩
    · exact ⟨rfl, rfl, rfl⟩
    · exact ⟨rfl, h1, h2⟩
  have hr2 : r.2.lastTid = n.lastTid := ho.1.trans hq'.1
  have key : ∀ (l : List Tx) (g : Message), (∀ t ∈ l, t.bytes = (r.2.updateTid g).1.bytes) →
      Emission n (r.2.updateTid g).2 (pouts ++ .handed g (r.2.updateTid g).1 :: l.map .tx) := by
    intro l g hl
    have := Emission.hand (n := n) (n' := (r.2.updateTid g).2) hr2 rfl hl
    unfold Emission at this ⊢
    rw [handed_append, txs_append, hq'.2.1, hq'.2.2]
    simpa using this
  cases hr1 : r.1 with
  | none =>
    rw [hr1] at hres
    simp only [] at hres
    rw [hres.1, hres.2]
    exact Or.inl ⟨hq'.2.2, hq'.2.1, hr2⟩
  | some res =>
    rw [hr1] at hres
    simp only [] at hres
    split at hres
    · split at hres
      · rw [hres.1, hres.2]; exact key _ _ (send_bytes _ _ _ _)
      · rw [hres.1, hres.2]; exact key _ _ (notify_bytes _ _ _)
    · rw [hres.1, hres.2]
      exact Or.inl ⟨hq'.2.2, hq'.2.1, hr2⟩

theorem announce_emission (ok : Nat → Bool) (n₀ n : Node S) (h : n₀.lastTid = n.lastTid) :
    Emission n (n₀.announce ok).2.1 (n₀.announce ok).2.2 := by
  unfold Node.announce
  split
  · exact .none h
  · split
    · exact .none h
    · exact Emission.hand h rfl (notify_bytes _ _ _)

theorem announce_frame (ok : Nat → Bool) (n : Node S) :
    (n.announce ok).2.1 = { n with lastTid := (n.announce ok).2.1.lastTid } ∧
    deliveries (n.announce ok).2.2 = [] := by
  unfold Node.announce
  split
  · exact ⟨rfl, rfl⟩
  · split
    · exact ⟨rfl, rfl⟩
    · simp only [Node.notify]
      exact ⟨Node.updateTid_frame _ _, deliveries_handed_cons _ _ _⟩

theorem updateNodeProfile_frame {b : Build} {n n' : Node S} (h : n.updateNodeProfile b = .ok n') :
    n' = { n with objects := n'.objects } := by
  unfold Node.updateNodeProfile at h
  split at h
  · simp only [Res.ok.injEq] at h; rw [← h]
  · obtain ⟨np, _, h⟩ := Res.bind_eq_ok.mp h
    simp only [Res.pure_eq, Res.ok.injEq] at h
    rw [← h]

theorem addObject_frame {b : Build} {n n' : Node S} {o : Object} (h : n.addObject b o = .ok n') :
    n' = { n with objects := n'.objects } := by
  have := updateNodeProfile_frame h
  exact this

/-- What `start` does with transaction IDs and posts. -/
theorem start_cases {menv uenv : List IfOutcome} {ok : Nat → Bool} {n n' : Node S} {r : Bool} {outs : List Out}
    (h : n.start menv uenv ok = .ok (r, n', outs)) :
    Emission n n' outs ∧ deliveries outs = [] ∧ n'.post = n.post ∧ n'.nextChan = n.nextChan := by
  unfold Node.start at h
  obtain ⟨s, _, h⟩ := Res.bind_eq_ok.mp h
  simp only [] at h
  by_cases hs : s.1 = true
  · simp only [hs, Bool.not_true, Bool.false_eq_true, if_false] at h
    let n₁ : Node S := { n with transport := s.2 }
    let n₂ := (n₁.setObjectPropertiesByte 0x80 0x30).setObjectPropertiesByte 0x88 0x42
    let n₀ : Node S := { n₂ with transport := n₂.observers.foldl Manager.addObserver n₂.transport }
    change (if (!(n₀.announce ok).1) = true then pure (false, (n₀.announce ok).2.1, (n₀.announce ok).2.2)
      else pure (true, (n₀.announce ok).2.1, (n₀.announce ok).2.2)) = Res.ok (r, n', outs) at h
    have h0 : n₀.lastTid = n.lastTid ∧ n₀.post = n.post ∧ n₀.nextChan = n.nextChan := by
      exact ⟨rfl, rfl, rfl⟩
    have ha := announce_emission ok n₀ n h0.1
    have hf := announce_frame ok n₀
    have hb : n' = (n₀.announce ok).2.1 ∧ outs = (n₀.announce ok).2.2 := by
      split at h
      · simp only [Res.pure_eq, Res.ok.injEq, Prod.mk.injEq] at h
        exact ⟨h.2.1.symm, h.2.2.symm⟩
      · simp only [Res.pure_eq, Res.ok.injEq, Prod.mk.injEq] at h
        exact ⟨h.2.1.symm, h.2.2.symm⟩
    rw [hb.1, hb.2]
    refine ⟨ha, hf.2, ?_, ?_⟩
    · rw [hf.1]; exact h0.2.1
    · rw [hf.1]; exact h0.2.2
  · simp only [hs, Bool.not_false, if_true, Res.pure_eq, Res.ok.injEq, Prod.mk.injEq] at h
    obtain ⟨_, rfl, rfl⟩ := h
    exact ⟨.none rfl, rfl, rfl, rfl⟩

theorem stop_frame {n n' : Node S} {r : Bool} (h : n.stop = .ok (r, n')) :
    n' = { n with objects := n'.objects, transport := n'.transport } := by
  unfold Node.stop at h
  obtain ⟨s, _, h⟩ := Res.bind_eq_ok.mp h
  split at h
  · simp only [Res.pure_eq, Res.ok.injEq, Prod.mk.injEq] at h; rw [← h.2]; rfl
  · simp only [Res.pure_eq, Res.ok.injEq, Prod.mk.injEq] at h; rw [← h.2]; rfl

theorem setProperty_frame (n : Node S) (oc : UInt32) (c : UInt8) (d : List UInt8) :
    (n.setProperty oc c d).2 = { n with objects := (n.setProperty oc c d).2.objects } := by
  unfold Node.setProperty
  split
  · rfl
  · split <;> rfl

/-- Every operation hands over at most one message. -/
theorem step_emission {b : Build} {n n' : Node S} {op : Op S} {outs : List Out}
    (h : n.step b op = .ok (n', outs)) : Emission n n' outs := by
  cases op with
  | addObject o =>
    obtain ⟨r, hr, h⟩ := Res.bind_eq_ok.mp h
    simp only [Res.pure_eq, Res.ok.injEq, Prod.mk.injEq] at h
    obtain ⟨rfl, rfl⟩ := h
    exact .none (by rw [addObject_frame hr])
  | addHandler _ =>
    simp only [Node.step, Res.ok.injEq, Prod.mk.injEq] at h
    obtain ⟨rfl, rfl⟩ := h
    exact .none rfl
  | addObserver _ =>
    simp only [Node.step, Res.ok.injEq, Prod.mk.injEq] at h
    obtain ⟨rfl, rfl⟩ := h
    exact .none rfl
  | send to msg ok =>
    simp only [Node.step, Node.sendMessage, Res.ok.injEq, Prod.mk.injEq] at h
    obtain ⟨rfl, rfl⟩ := h
    exact Emission.hand rfl rfl (send_bytes _ _ _ _)
  | post to msg ok =>
    simp only [Node.step, Node.postMessage, Res.ok.injEq, Prod.mk.injEq] at h
    obtain ⟨rfl, rfl⟩ := h
    exact Emission.hand rfl rfl (send_bytes _ _ _ _)
  | notify msg ok =>
    simp only [Node.step, Node.notify, Res.ok.injEq, Prod.mk.injEq] at h
    obtain ⟨rfl, rfl⟩ := h
    exact Emission.hand rfl rfl (notify_bytes _ _ _)
  | announceProperty obj prop ok =>
    simp only [Node.step, Node.announceProperty, Node.notify, Res.ok.injEq, Prod.mk.injEq] at h
    obtain ⟨rfl, rfl⟩ := h
    exact Emission.hand rfl rfl (notify_bytes _ _ _)
  | announce ok =>
    simp only [Node.step, Res.ok.injEq, Prod.mk.injEq] at h
    obtain ⟨rfl, rfl⟩ := h
    exact announce_emission ok n n rfl
  | start menv uenv ok =>
    obtain ⟨r, hr, h⟩ := Res.bind_eq_ok.mp h
    simp only [Res.pure_eq, Res.ok.injEq, Prod.mk.injEq] at h
    obtain ⟨rfl, rfl⟩ := h
    exact (start_cases hr).1
  | stop =>
    obtain ⟨r, hr, h⟩ := Res.bind_eq_ok.mp h
    simp only [Res.pure_eq, Res.ok.injEq, Prod.mk.injEq] at h
    obtain ⟨rfl, rfl⟩ := h
    exact .none (by rw [stop_frame hr])
  | setProperty oc c d =>
    simp only [Node.step, Res.ok.injEq, Prod.mk.injEq] at h
    obtain ⟨rfl, rfl⟩ := h
    exact .none (by rw [setProperty_frame])
  | edit oc f =>
    simp only [Node.step, Res.ok.injEq, Prod.mk.injEq] at h
    obtain ⟨rfl, rfl⟩ := h
    exact .none rfl
  | receive msg free ω ok =>
    simp only [Node.step, Node.observeTry] at h
    cases free with
    | false =>
      simp only [Bool.not_false, if_true, Res.ok.injEq, Prod.mk.injEq] at h
      obtain ⟨rfl, rfl⟩ := h
      exact .none rfl
    | true =>
      simp only [Bool.not_true, Bool.false_eq_true, if_false] at h
      exact observe_emission h

/-- What `observe` does to the pending post. -/
theorem observe_post {b : Build} {ω : HashOrder} {ok : Nat → Bool} {n n' : Node S} {msg : Message}
    {outs : List Out} (h : n.observe b ω ok msg = .ok (n', outs)) :
    (if isRequestByte msg.esvByte = false ∧ msg.tid = n.lastTid then
      n'.post = none ∧ ∃ m, msg.clone = .ok m ∧ deliveries outs = (n.post.map (fun ch => (ch, m))).toList
    else n'.post = n.post ∧ deliveries outs = []) := by
  unfold Node.observe at h
  obtain ⟨p, hp, h⟩ := Res.bind_eq_ok.mp h
  obtain ⟨r, hr, h⟩ := Res.bind_eq_ok.mp h
  have ho := Outcome_lastTid (Node.messageReceived_outcome (res := r.1) (n' := r.2) hr)
  have hfin : n'.post = p.1.post ∧ deliveries outs = deliveries p.2 := by
    rw [← ho.2.1]
    cases hr1 : r.1 with
    | none =>
      simp only [hr1, Res.pure_eq, Res.ok.injEq, Prod.mk.injEq] at h
      rw [← h.1, ← h.2]; exact ⟨rfl, rfl⟩
    | some res =>
      simp only [hr1] at h
      split at h
      · split at h
        · simp only [Res.pure_eq, Res.ok.injEq, Prod.mk.injEq, Node.sendMessage] at h
          rw [← h.1, ← h.2, deliveries_append, deliveries_handed_cons, Node.updateTid_frame]
          exact ⟨rfl, by simp⟩
        · simp only [Res.pure_eq, Res.ok.injEq, Prod.mk.injEq, Node.notify] at h
          rw [← h.1, ← h.2, deliveries_append, deliveries_handed_cons, Node.updateTid_frame]
          exact ⟨rfl, by simp⟩
      · simp only [Res.pure_eq, Res.ok.injEq, Prod.mk.injEq] at h
        rw [← h.1, ← h.2]; exact ⟨rfl, rfl⟩
  rw [hfin.1, hfin.2]
  have hl : n.isLastMessageResponse msg = true ↔ (isRequestByte msg.esvByte = false ∧ msg.tid = n.lastTid) := by
    unfold Node.isLastMessageResponse
    rw [Message.esv, isRequest_byte]
    cases isRequestByte msg.esvByte <;> by_cases ht : msg.tid = n.lastTid <;> simp [ht]
  unfold Node.observePost at hp
  by_cases hc : isRequestByte msg.esvByte = false ∧ msg.tid = n.lastTid
  · rw [if_pos hc]
    rw [if_pos (hl.mpr hc)] at hp
    obtain ⟨m, hm, hp⟩ := Res.bind_eq_ok.mp hp
    simp only [Res.pure_eq, Res.ok.injEq] at hp
    subst hp
    refine ⟨rfl, m, hm, ?_⟩
    unfold Node.sendPostResponse
    simp only []
    cases n.post <;> rfl
  · rw [if_neg hc]
    rw [if_neg (fun hx => hc (hl.mp hx))] at hp
    simp only [Res.ok.injEq] at hp
    subst hp
    exact ⟨rfl, rfl⟩

/-- What an operation does to the pending post. -/
theorem step_post {b : Build} {n n' : Node S} {op : Op S} {outs : List Out}
    (h : n.step b op = .ok (n', outs)) :
    (∃ to msg ok, op = .post to msg ok ∧ n'.post = some n.nextChan ∧ n'.nextChan = n.nextChan + 1 ∧
      deliveries outs = []) ∨
    (n'.nextChan = n.nextChan ∧ n'.post = n.post ∧ deliveries outs = []) ∨
    (∃ msg ω ok m, op = .receive msg true ω ok ∧ isRequestByte msg.esvByte = false ∧ msg.tid = n.lastTid ∧
      msg.clone = .ok m ∧ n'.nextChan = n.nextChan ∧ n'.post = none ∧
      deliveries outs = (n.post.map (fun ch => (ch, m))).toList) := by
  cases op with
  | addObject o =>
    obtain ⟨r, hr, h⟩ := Res.bind_eq_ok.mp h
    simp only [Res.pure_eq, Res.ok.injEq, Prod.mk.injEq] at h
    obtain ⟨rfl, rfl⟩ := h
    rw [addObject_frame hr]
    exact Or.inr (Or.inl ⟨rfl, rfl, rfl⟩)
  | addHandler _ =>
    simp only [Node.step, Res.ok.injEq, Prod.mk.injEq] at h
    obtain ⟨rfl, rfl⟩ := h
    exact Or.inr (Or.inl ⟨rfl, rfl, rfl⟩)
  | addObserver _ =>
    simp only [Node.step, Res.ok.injEq, Prod.mk.injEq] at h
    obtain ⟨rfl, rfl⟩ := h
    exact Or.inr (Or.inl ⟨rfl, rfl, rfl⟩)
  | send to msg ok =>
    simp only [Node.step, Node.sendMessage, Res.ok.injEq, Prod.mk.injEq] at h
    obtain ⟨rfl, rfl⟩ := h
    rw [Node.updateTid_frame]
    exact Or.inr (Or.inl ⟨rfl, rfl, deliveries_handed_cons _ _ _⟩)
  | post to msg ok =>
    simp only [Node.step, Node.postMessage, Res.ok.injEq, Prod.mk.injEq] at h
    obtain ⟨rfl, rfl⟩ := h
    rw [Node.updateTid_frame]
    exact Or.inl ⟨to, msg, ok, rfl, rfl, rfl, deliveries_handed_cons _ _ _⟩
  | notify msg ok =>
    simp only [Node.step, Node.notify, Res.ok.injEq, Prod.mk.injEq] at h
    obtain ⟨rfl, rfl⟩ := h
    rw [Node.updateTid_frame]
    exact Or.inr (Or.inl ⟨rfl, rfl, deliveries_handed_cons _ _ _⟩)
  | announceProperty obj prop ok =>
    simp only [Node.step, Node.announceProperty, Node.notify, Res.ok.injEq, Prod.mk.injEq] at h
    obtain ⟨rfl, rfl⟩ := h
    rw [Node.updateTid_frame]
    exact Or.inr (Or.inl ⟨rfl, rfl, deliveries_handed_cons _ _ _⟩)
  | announce ok =>
    simp only [Node.step, Res.ok.injEq, Prod.mk.injEq] at h
    obtain ⟨rfl, rfl⟩ := h
    have := announce_frame ok n
    rw [this.1, this.2]
    exact Or.inr (Or.inl ⟨rfl, rfl, rfl⟩)
  | start menv uenv ok =>
    obtain ⟨r, hr, h⟩ := Res.bind_eq_ok.mp h
    simp only [Res.pure_eq, Res.ok.injEq, Prod.mk.injEq] at h
    obtain ⟨rfl, rfl⟩ := h
    have := start_cases hr
    exact Or.inr (Or.inl ⟨this.2.2.2, this.2.2.1, this.2.1⟩)
  | stop =>
    obtain ⟨r, hr, h⟩ := Res.bind_eq_ok.mp h
    simp only [Res.pure_eq, Res.ok.injEq, Prod.mk.injEq] at h
    obtain ⟨rfl, rfl⟩ := h
    rw [stop_frame hr]
    exact Or.inr (Or.inl ⟨rfl, rfl, rfl⟩)
  | setProperty oc c d =>
    simp only [Node.step, Res.ok.injEq, Prod.mk.injEq] at h
    obtain ⟨rfl, rfl⟩ := h
    rw [setProperty_frame]
    exact Or.inr (Or.inl ⟨rfl, rfl, rfl⟩)
  | edit oc f =>
    simp only [Node.step, Res.ok.injEq, Prod.mk.injEq] at h
    obtain ⟨rfl, rfl⟩ := h
    exact Or.inr (Or.inl ⟨rfl, rfl, rfl⟩)
  | receive msg free ω ok =>
    simp only [Node.step, Node.observeTry] at h
    cases free with
    | false =>
      simp only [Bool.not_false, if_true, Res.ok.injEq, Prod.mk.injEq] at h
      obtain ⟨rfl, rfl⟩ := h
      exact Or.inr (Or.inl ⟨rfl, rfl, rfl⟩)
    | true =>
      simp only [Bool.not_true, Bool.false_eq_true, if_false] at h
      have h1 := observe_post h
      have h2 := (observe_frame h).2.2.2
      split at h1
      · rename_i hc
        obtain ⟨hp, m, hm, hd⟩ := h1
        exact Or.inr (Or.inr ⟨msg, ω, ok, m, rfl, hc.1, hc.2, hm, h2, hp, hd⟩)
      · exact Or.inr (Or.inl ⟨h2, h1.1, h1.2⟩)

/-- Runs can be split. -/
theorem run_append {b : Build} {n : Node S} {l₁ l₂ : List (Op S)} {n' : Node S} {outs : List Out} :
    n.run b (l₁ ++ l₂) = .ok (n', outs) ↔
      ∃ n₁ o₁ o₂, n.run b l₁ = .ok (n₁, o₁) ∧ n₁.run b l₂ = .ok (n', o₂) ∧ outs = o₁ ++ o₂ := by
  induction l₁ generalizing n outs with
  | nil =>
    simp only [List.nil_append, Node.run]
    constructor
    · intro h; exact ⟨n, [], outs, rfl, h, rfl⟩
    · rintro ⟨n₁, o₁, o₂, h1, h2, rfl⟩
      simp only [Res.ok.injEq, Prod.mk.injEq] at h1
      obtain ⟨rfl, rfl⟩ := h1
      exact h2
  | cons op l₁ ih =>
    simp only [List.cons_append, Node.run]
    constructor
    · intro h
      obtain ⟨r, hr, h⟩ := Res.bind_eq_ok.mp h
      obtain ⟨r', hr', h⟩ := Res.bind_eq_ok.mp h
      simp only [Res.pure_eq, Res.ok.injEq, Prod.mk.injEq] at h
      obtain ⟨rfl, rfl⟩ := h
      obtain ⟨n₁, o₁, o₂, h1, h2, h3⟩ := ih.mp hr'
      refine ⟨n₁, r.2 ++ o₁, o₂, ?_, h2, by rw [h3, List.append_assoc]⟩
      rw [hr]; simp only [Res.bind_ok, h1]; rfl
    · rintro ⟨n₁, o₁, o₂, h1, h2, rfl⟩
      obtain ⟨r, hr, h1⟩ := Res.bind_eq_ok.mp h1
      obtain ⟨r', hr', h1⟩ := Res.bind_eq_ok.mp h1
      simp only [Res.pure_eq, Res.ok.injEq, Prod.mk.injEq] at h1
      obtain ⟨rfl, rfl⟩ := h1
      have := (ih (n := r.1) (outs := r'.2 ++ o₂)).mpr ⟨r'.1, r'.2, o₂, hr', h2, rfl⟩
      rw [hr]; simp only [Res.bind_ok, this, Res.pure_eq, List.append_assoc]

theorem run_cons {b : Build} {n : Node S} {op : Op S} {l : List (Op S)} {n' : Node S} {outs : List Out} :
    n.run b (op :: l) = .ok (n', outs) ↔
      ∃ n₁ o₁ o₂, n.step b op = .ok (n₁, o₁) ∧ n₁.run b l = .ok (n', o₂) ∧ outs = o₁ ++ o₂ := by
  simp only [Node.run]
  constructor
  · intro h
    obtain ⟨r, hr, h⟩ := Res.bind_eq_ok.mp h
    obtain ⟨r', hr', h⟩ := Res.bind_eq_ok.mp h
    simp only [Res.pure_eq, Res.ok.injEq, Prod.mk.injEq] at h
    obtain ⟨rfl, rfl⟩ := h
    exact ⟨r.1, r.2, r'.2, hr, hr', rfl⟩
  · rintro ⟨n₁, o₁, o₂, h1, h2, rfl⟩
    rw [h1]; simp only [Res.bind_ok, h2]; rfl

end Uecho
