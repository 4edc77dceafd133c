import Verif.Spec.Carried
import Verif.Props.Answered
import Verif.Props.Handlers
import Verif.Props.MonoLight
/-!
# Requests that are sent are carried out: C97
-/
namespace Uecho
open Spec
variable {S : Type}

/-! ## The node -/

theorem Node.messageReceived_same {b : Build} {ω : HashOrder} {n k n' : Node S} {q : Message} {res : Option Message}
    (hs : SameContents n k) (h : n.messageReceived b ω q = .ok (res, n')) :
    ∃ k', k.messageReceived b ω q = .ok (res, k') ∧ SameContents n' k' := by
  obtain ⟨h1, h2, h3⟩ := hs
  unfold Node.messageReceived at h ⊢
  rw [← h1, ← h2, ← h3]
  split at h
  · rename_i hc
    rw [if_pos hc]
    cases h
    exact ⟨k, rfl, h1, h2, h3⟩
  · rename_i hc
    rw [if_neg hc]
    cases hf : findObject n.objects q.deoj with
    | none =>
      rw [hf] at h
      cases h
      exact ⟨k, rfl, h1, h2, h3⟩
    | some dst =>
      rw [hf] at h
      simp only [] at h ⊢
      split at h
      · rename_i hc
        rw [if_pos hc]
        cases h
        exact ⟨k, rfl, h1, h2, h3⟩
      · rename_i hc
        rw [if_neg hc]
        split at h
        · rename_i hc
          rw [if_pos hc]
          cases h
          exact ⟨k, rfl, h1, h2, h3⟩
        · rename_i hc
          rw [if_neg hc]
          cases hcl : dst.clone b (ω.sub 0) with
          | panic => rw [hcl] at h; cases h
          | ok copy =>
            rw [hcl] at h
            simp only [Res.bind_ok, Res.pure_eq] at h ⊢
            split at h
            · rename_i hc
              rw [if_pos hc]
              cases h
              exact ⟨_, rfl, rfl, rfl, rfl⟩
            · rename_i hc
              rw [if_neg hc]
              split at h
              · cases h
                exact ⟨_, rfl, rfl, rfl, rfl⟩
              · cases h
                exact ⟨_, rfl, rfl, rfl, rfl⟩

theorem Spec.SameContents.trans {n k l : Node S} (h : SameContents n k) (h' : SameContents k l) : SameContents n l :=
  ⟨h.1.trans h'.1, h.2.1.trans h'.2.1, h.2.2.trans h'.2.2⟩

theorem Spec.SameContents.symm {n k : Node S} (h : SameContents n k) : SameContents k n := ⟨h.1.symm, h.2.1.symm, h.2.2.symm⟩

theorem updateTid_contents (n : Node S) (m : Message) : SameContents n (n.updateTid m).2 := by
  rw [Node.updateTid_frame]; exact ⟨rfl, rfl, rfl⟩

/-- What a node does with a request depends on its objects and handlers only. -/
theorem Node.observe_same {b : Build} {ω : HashOrder} {ok : Nat → Bool} {n k n' : Node S} {q : Message} {outs : List Out}
    (hq : isRequestByte q.esvByte = true) (hs : SameContents n k) (h : n.observe b ω ok q = .ok (n', outs)) :
    ∃ k' outs', k.observe b ω ok q = .ok (k', outs') ∧ SameContents n' k' := by
  have hl : ∀ x : Node S, x.observePost q = .ok (x, []) := by
    intro x
    have : q.esv.isRequest = true := by
      rw [show q.esv = ESV.fromU8 q.esvByte from rfl, isRequest_byte]; exact hq
    unfold Node.observePost Node.isLastMessageResponse
    simp [this]
  unfold Node.observe at h ⊢
  rw [hl, Res.bind_ok] at h ⊢
  obtain ⟨⟨res, n₁⟩, hr, h⟩ := Res.bind_eq_ok.mp h
  obtain ⟨k₁, hk, hsame⟩ := Node.messageReceived_same hs hr
  simp only [] at hk h
  rw [hk]
  simp only [Res.bind_ok, Res.pure_eq] at h ⊢
  have up : ∀ x, SameContents (n₁.updateTid x).2 (k₁.updateTid x).2 :=
    fun x => ((updateTid_contents n₁ x).symm.trans hsame).trans (updateTid_contents k₁ x)
  cases res with
  | none => cases h; exact ⟨_, _, rfl, hsame⟩
  | some r =>
    simp only [] at h ⊢
    split at h
    · rename_i hc
      rw [if_pos hc]
      split at h
      · rename_i hc
        rw [if_pos hc]
        cases h
        exact ⟨_, _, rfl, up r⟩
      · rename_i hc
        rw [if_neg hc]
        cases h
        exact ⟨_, _, rfl, up r⟩
    · rename_i hc
      rw [if_neg hc]
      cases h
      exact ⟨_, _, rfl, hsame⟩

/-- Other messages do not change objects and handlers. -/
theorem observe_other {b : Build} {ω : HashOrder} {ok : Nat → Bool} {n n' : Node S} {q : Message} {outs : List Out}
    (hq : isRequestByte q.esvByte = false) (h : n.observe b ω ok q = .ok (n', outs)) : SameContents n n' := by
  rcases (Node.observe_nonrequest hq h).1 with rfl | rfl <;> exact ⟨rfl, rfl, rfl⟩

/-! ## The invariant -/

/-- A datagram with the request, for host `j`. -/
def ReqPacket (own : IpAddr → Option Nat) (i j : Nat) (u : Message) (p : Packet) : Prop :=
  p.host = j ∧ p.bytes = u.bytes ∧ own p.src.ip = some i

/-- The request, received. -/
def ReqCopy (own : IpAddr → Option Nat) (i : Nat) (u q : Message) : Prop :=
  frameOf q = frameOf u ∧ own q.sender.ip = some i ∧ Received q ∧
    (isWriteReadByte u.esvByte = false → q.setProperties = [] ∧ q.getProperties = []) ∧
    (isWriteReadByte u.esvByte = true → q.properties = [])

/-- No receiver thread has called the node for the request yet. -/
structure CarryPending (own : IpAddr → Option Nat) (i j : Nat) (u : Message) (n₁ n : Net S) : Prop where
  same : n.hosts j = n₁.hosts j
  sound : n.poisoned j .node = false
  fly : ∀ p ∈ n.flying, ReqPacket own i j u p
  busy : ∀ q ∈ n.busy, q.host = j ∧ ReqCopy own i u q.msg ∧ q.todo.head? = some .node
  there : (∃ p ∈ n.flying, Listening n j p.srv) ∨ n.busy ≠ []

/-- The request has been carried out. -/
structure CarryDone (b : Build) (own : IpAddr → Option Nat) (i j : Nat) (u : Message) (n₁ n : Net S) : Prop where
  fly : ∀ p ∈ n.flying, ReqPacket own i j u p ∨ isRequestDatagram p.bytes = false
  busy : ∀ q ∈ n.busy, q.host = j ∧ ReqCopy own i u q.msg ∨ isRequestByte q.msg.esvByte = false
  run : ∃ l nh outs, (n₁.hosts j).node.run b (arrivals l) = .ok (nh, outs) ∧ processed l ≠ [] ∧
    (∀ q ∈ processed l, ReqCopy own i u q) ∧ SameContents nh (n.hosts j).node

/-- What is known about the sent message and the asked host. -/
structure CarryEnv (b : Build) (j : Nat) (u : Message) (n₁ : Net S) : Prop where
  fits : Fits u
  format : u.isFormat1 = true
  service : isRequestByte u.esvByte = true
  calls : ∀ s ∈ (n₁.hosts j).threads, s.observers.head? = some .node
  objects : ∀ o ∈ (n₁.hosts j).node.objects, ValidObject b o

theorem request_not5E {e : UInt8} (h : isRequestByte e = true) : e ≠ 0x5E := by rintro rfl; exact absurd h (by decide)

theorem reqcopy_esv {own : IpAddr → Option Nat} {i : Nat} {u q : Message} (h : ReqCopy own i u q) : q.esvByte = u.esvByte :=
  congrArg Frame.esv h.1

theorem reqcopy_received {own : IpAddr → Option Nat} {i j : Nat} {u : Message} {p : Packet} (hf : Fits u)
    (hfmt : u.isFormat1 = true) (hs : isRequestByte u.esvByte = true) (h : ReqPacket own i j u p) :
    ∃ q, recvLoop [.datagram p.bytes p.src] = ([q], .running) ∧ ReqCopy own i u q := by
  obtain ⟨_, h1, h2⟩ := h
  obtain ⟨q, g1, g2, _⟩ := fits_received hfmt (request_not5E hs) hf p.src
  rw [← h1] at g1
  have hrest : (isWriteReadByte u.esvByte = false → q.setProperties = [] ∧ q.getProperties = []) ∧
      (isWriteReadByte u.esvByte = true → q.properties = []) := by
    have he := Message.bytes_eq_encode u hfmt (request_not5E hs)
    have hl := hf.2
    rw [he] at hl
    obtain ⟨q', k1, _, _, _, _, _, _, k2⟩ := recv_frame (frameOf u) (frameOf_valid _ hf.1) hl p.src
    rw [← he, ← h1, g1] at k1
    simp only [Prod.mk.injEq, List.cons.injEq, and_true] at k1
    subst k1
    refine ⟨fun hw => ?_, fun hw => ?_⟩
    · simp only [frameOf, hw, Bool.false_eq_true, if_false] at k2
      exact k2.2
    · simp only [frameOf, hw, if_true] at k2
      exact k2.1
  refine ⟨q, g1, ?_, by rw [g2]; exact h2, ⟨_, _, g1⟩, hrest⟩
  rcases recvOne p.bytes p.src with ⟨m, e, k1, k2, _⟩ | k | k
  · rw [g1] at k1
    simp only [Prod.mk.injEq, List.cons.injEq, and_true] at k1
    rw [← k1.1] at k2
    obtain ⟨r1, r2, _⟩ := reads_received k2
    exact reads_frame r1 r2 h1 (frameOf_valid _ hf.1) hfmt (request_not5E hs)
  · rw [g1] at k; simp at k
  · rw [g1] at k; simp at k

theorem killThread_same (h : Host S) (k : Nat) : SameContents h.node (h.killThread k).node := ⟨rfl, rfl, rfl⟩

/-- The request is still to be carried out, or has been: one step of the network. -/
theorem carry_pending_step {b : Build} {db : Database} {own : IpAddr → Option Nat} {i j : Nat} {u : Message}
    {n₁ n n' : Net S} {k : Nat} {outs : List Out} (env : CarryEnv b j u n₁) (inv : CarryPending own i j u n₁ n)
    (h : Reliable b db own n k outs n') : CarryPending own i j u n₁ n' ∨ CarryDone b own i j u n₁ n' := by
  cases h with
  | receive l₁ l₂ p s hf hs hrun hidle =>
    have hp : p ∈ n.flying := by rw [hf]; simp
    have hpk := inv.fly p hp
    obtain ⟨q, hq, hqc⟩ := reqcopy_received env.fits env.format env.service hpk
    have hx : n.received p s (l₁ ++ l₂) =
        { n with flying := l₁ ++ l₂, busy := n.busy ++ [⟨p.host, p.srv, q, s.observers⟩] } := by
      unfold Net.received; rw [hq]
    rw [hx]
    refine Or.inl ⟨inv.same, inv.sound, fun p' hp' => inv.fly p' (mem_of_split hf hp'), ?_, Or.inr (by simp)⟩
    intro q' hq'
    rcases List.mem_append.mp hq' with hq' | hq'
    · exact inv.busy q' hq'
    · rw [List.mem_singleton.mp hq']
      refine ⟨hpk.1, hqc, env.calls s ?_⟩
      rw [← inv.same, ← hpk.1]; exact List.mem_of_getElem? hs
  | drop l₁ l₂ p hf hd =>
    refine Or.inl ⟨inv.same, inv.sound, fun p' hp' => inv.fly p' (mem_of_split hf hp'), inv.busy, ?_⟩
    rcases inv.there with ⟨p', g1, g2⟩ | h
    · rcases mem_split_cases hf g1 with rfl | g1'
      · rw [(inv.fly _ g1).1] at hd; exact absurd g2 hd
      · exact Or.inl ⟨p', g1', g2⟩
    · exact Or.inr h
  | done l₁ l₂ q hb ht =>
    exfalso
    have := (inv.busy q (by rw [hb]; simp)).2.2
    rw [ht] at this; simp at this
  | skip l₁ l₂ q o os hb ht hpo hm =>
    exfalso
    obtain ⟨hj, _, hh⟩ := inv.busy q (by rw [hb]; simp)
    rw [ht] at hh
    simp only [List.head?_cons, Option.some.injEq] at hh
    rw [hj, hh, inv.sound] at hpo; cases hpo
  | infected l₁ l₂ q o os hb ht hpo =>
    exfalso
    obtain ⟨hj, _, hh⟩ := inv.busy q (by rw [hb]; simp)
    rw [ht] at hh
    simp only [List.head?_cons, Option.some.injEq] at hh
    rw [hj, hh, inv.sound] at hpo; cases hpo
  | die l₁ l₂ q o os ev hb ht hpo hu hfree hok hinv =>
    exfalso
    obtain ⟨hj, hc, hh⟩ := inv.busy q (by rw [hb]; simp)
    rw [ht] at hh
    simp only [List.head?_cons, Option.some.injEq] at hh
    subst hh
    simp only [Host.invoke, Node.observeTry, hfree.1, Bool.not_true, Bool.false_eq_true, if_false] at hinv
    cases hobs : (n.hosts q.host).node.observe b ev.ω ev.ok q.msg with
    | ok r => rw [hobs] at hinv; simp at hinv
    | panic =>
      have := (C57_receive_panics_iff b ev.ω ev.ok _ (by rw [hj, inv.same]; exact env.objects) q.msg hc.2.2.1).mp hobs
      rw [reqcopy_esv hc] at this
      exact request_not5E env.service this.1
  | call l₁ l₂ q o os ev h' outs ps hb ht hpo hu hfree hok hinv hps =>
    right
    have hq : q ∈ n.busy := by rw [hb]; simp
    obtain ⟨hj, hc, hh⟩ := inv.busy q hq
    rw [ht] at hh
    simp only [List.head?_cons, Option.some.injEq] at hh
    subst hh
    have hnew := copies_response hinv hps.1
    simp only [Host.invoke, Node.observeTry, hfree.1, Bool.not_true, Bool.false_eq_true, if_false] at hinv
    obtain ⟨r, hobs, hr⟩ := Res.bind_eq_ok.mp hinv
    simp only [Res.pure_eq, Res.ok.injEq, Prod.mk.injEq] at hr
    obtain ⟨rfl, rfl⟩ := hr
    rw [hj, inv.same] at hobs
    refine ⟨?_, ?_, [⟨q.msg, true, ev.ω, ev.ok⟩], r.1, r.2, ?_, by simp [processed], ?_, ?_⟩
    · intro p hp
      rcases List.mem_append.mp hp with hp | hp
      · exact Or.inl (inv.fly p hp)
      · exact Or.inr (hnew p hp).2.2.1
    · intro q' hq'
      have : q' ∈ n.busy ∨ q' = { q with todo := os } := by
        rcases List.mem_append.mp hq' with h | h
        · left; rw [hb]; simp [h]
        · rcases List.mem_cons.mp h with h | h
          · exact Or.inr h
          · left; rw [hb]; simp [h]
      rcases this with h | rfl
      · obtain ⟨g1, g2, _⟩ := inv.busy q' h
        exact Or.inl ⟨g1, g2⟩
      · exact Or.inl ⟨hj, hc⟩
    · simp [arrivals, Node.run, Node.step, Node.observeTry, hobs]
    · intro q' hq'
      simp only [processed, List.filter_cons, List.filter_nil, if_true, List.map_cons, List.map_nil, List.mem_singleton] at hq'
      rw [hq']; exact hc
    · show SameContents r.1 ((n.setHost q.host _).hosts j).node
      rw [hj]
      simp [Net.setHost, SameContents]

theorem carry_done_step {b : Build} {db : Database} {own : IpAddr → Option Nat} {i j : Nat} {u : Message}
    {n₁ n n' : Net S} {k : Nat} {outs : List Out} (env : CarryEnv b j u n₁) (inv : CarryDone b own i j u n₁ n)
    (h : Reliable b db own n k outs n') : CarryDone b own i j u n₁ n' := by
  obtain ⟨l, nh, ho, hrun, hne, hall, hsame⟩ := inv.run
  have keep : ∀ c (h' : Host S), SameContents (n.hosts c).node h'.node →
      SameContents nh ((n.setHost c h').hosts j).node := by
    intro c h' hh
    by_cases hc : j = c
    · subst hc
      simp only [Net.setHost, if_true]
      exact hsame.trans hh
    · simp only [Net.setHost, hc, if_false]
      exact hsame
  cases h with
  | receive l₁ l₂ p s hf hs hr hidle =>
    have hp : p ∈ n.flying := by rw [hf]; simp
    have hfly : ∀ p' ∈ l₁ ++ l₂, ReqPacket own i j u p' ∨ isRequestDatagram p'.bytes = false :=
      fun p' hp' => inv.fly p' (mem_of_split hf hp')
    rcases recvOne p.bytes p.src with ⟨m, e, h, _, _, h10⟩ | h | h
    · have hx : n.received p s (l₁ ++ l₂) =
          { n with flying := l₁ ++ l₂, busy := n.busy ++ [⟨p.host, p.srv, m, s.observers⟩] } := by
        unfold Net.received; rw [h]
      rw [hx]
      refine ⟨hfly, ?_, l, nh, ho, hrun, hne, hall, hsame⟩
      intro q' hq'
      rcases List.mem_append.mp hq' with hq' | hq'
      · exact inv.busy q' hq'
      · rw [List.mem_singleton.mp hq']
        rcases inv.fly p hp with hpk | hpk
        · obtain ⟨q, hq, hqc⟩ := reqcopy_received env.fits env.format env.service hpk
          rw [h] at hq
          simp only [Prod.mk.injEq, List.cons.injEq, and_true] at hq
          rw [hq.1]
          exact Or.inl ⟨hpk.1, hqc⟩
        · right
          unfold isRequestDatagram at hpk
          rw [h10] at hpk
          exact hpk
    · have hx : n.received p s (l₁ ++ l₂) =
          { n.setHost p.host ((n.hosts p.host).killThread p.srv) with flying := l₁ ++ l₂ } := by
        unfold Net.received; rw [h]
      rw [hx]
      exact ⟨hfly, inv.busy, l, nh, ho, hrun, hne, hall, keep _ _ (killThread_same _ _)⟩
    · have hx : n.received p s (l₁ ++ l₂) = { n with flying := l₁ ++ l₂ } := by
        unfold Net.received; rw [h]
      rw [hx]
      exact ⟨hfly, inv.busy, l, nh, ho, hrun, hne, hall, hsame⟩
  | drop l₁ l₂ p hf hd =>
    exact ⟨fun p' hp' => inv.fly p' (mem_of_split hf hp'), inv.busy, l, nh, ho, hrun, hne, hall, hsame⟩
  | done l₁ l₂ q hb ht =>
    exact ⟨inv.fly, fun q' hq' => inv.busy q' (mem_of_split hb hq'), l, nh, ho, hrun, hne, hall, hsame⟩
  | die l₁ l₂ q o os ev hb ht hpo hu hfree hok hinv =>
    exact ⟨inv.fly, fun q' hq' => inv.busy q' (mem_of_split hb hq'), l, nh, ho, hrun, hne, hall,
      keep _ _ (killThread_same _ _)⟩
  | infected l₁ l₂ q o os hb ht hpo =>
    exact ⟨inv.fly, fun q' hq' => inv.busy q' (mem_of_split hb hq'), l, nh, ho, hrun, hne, hall,
      keep _ _ (killThread_same _ _)⟩
  | skip l₁ l₂ q o os hb ht hpo hm =>
    have hq : q ∈ n.busy := by rw [hb]; simp
    refine ⟨inv.fly, ?_, l, nh, ho, hrun, hne, hall, hsame⟩
    intro q' hq'
    rcases List.mem_append.mp hq' with h | h
    · exact inv.busy q' (by rw [hb]; simp [h])
    · rcases List.mem_cons.mp h with rfl | h
      · exact inv.busy q hq
      · exact inv.busy q' (by rw [hb]; simp [h])
  | call l₁ l₂ q o os ev h' outs ps hb ht hpo hu hfree hok hinv hps =>
    have hq : q ∈ n.busy := by rw [hb]; simp
    have hnew := copies_response hinv hps.1
    have hfly : ∀ p ∈ n.flying ++ ps, ReqPacket own i j u p ∨ isRequestDatagram p.bytes = false := by
      intro p hp
      rcases List.mem_append.mp hp with hp | hp
      · exact inv.fly p hp
      · exact Or.inr (hnew p hp).2.2.1
    have hbusy : ∀ q' ∈ l₁ ++ { q with todo := os } :: l₂,
        q'.host = j ∧ ReqCopy own i u q'.msg ∨ isRequestByte q'.msg.esvByte = false := by
      intro q' hq'
      rcases List.mem_append.mp hq' with h | h
      · exact inv.busy q' (by rw [hb]; simp [h])
      · rcases List.mem_cons.mp h with rfl | h
        · exact inv.busy q hq
        · exact inv.busy q' (by rw [hb]; simp [h])
    refine ⟨hfly, hbusy, ?_⟩
    cases o with
    | controller =>
      simp only [Host.invoke] at hinv
      obtain ⟨r, _, hinv⟩ := Res.bind_eq_ok.mp hinv
      simp only [Res.pure_eq, Res.ok.injEq, Prod.mk.injEq] at hinv
      exact ⟨l, nh, ho, hrun, hne, hall, keep _ _ (by rw [← hinv.1]; exact ⟨rfl, rfl, rfl⟩)⟩
    | device =>
      simp only [Host.invoke, Res.ok.injEq, Prod.mk.injEq] at hinv
      exact ⟨l, nh, ho, hrun, hne, hall, keep _ _ (by rw [← hinv.1]; exact ⟨rfl, rfl, rfl⟩)⟩
    | user c =>
      simp only [Host.invoke, Res.ok.injEq, Prod.mk.injEq] at hinv
      exact ⟨l, nh, ho, hrun, hne, hall, keep _ _ (by rw [← hinv.1]; exact ⟨rfl, rfl, rfl⟩)⟩
    | node =>
      simp only [Host.invoke, Node.observeTry, hfree.1, Bool.not_true, Bool.false_eq_true, if_false] at hinv
      obtain ⟨r, hobs, hr⟩ := Res.bind_eq_ok.mp hinv
      simp only [Res.pure_eq, Res.ok.injEq, Prod.mk.injEq] at hr
      obtain ⟨rfl, rfl⟩ := hr
      have hobs : (n.hosts q.host).node.observe b ev.ω ev.ok q.msg = .ok (r.1, r.2) := hobs
      rcases inv.busy q hq with ⟨hj, hc⟩ | hc
      · obtain ⟨nh', o', hobs', hsame'⟩ := Node.observe_same (by rw [reqcopy_esv hc]; exact env.service)
          hsame.symm (by rw [hj] at hobs; exact hobs)
        refine ⟨l ++ [⟨q.msg, true, ev.ω, ev.ok⟩], nh', ho ++ o', ?_, ?_, ?_, ?_⟩
        · unfold arrivals
          rw [List.map_append]
          refine run_append.mpr ⟨nh, ho, o', hrun, ?_, rfl⟩
          simp [Node.run, Node.step, Node.observeTry, hobs']
        · unfold processed at hne ⊢
          rw [List.filter_append, List.map_append]
          exact fun h => hne (List.append_eq_nil_iff.mp h).1
        · intro q' hq'
          unfold processed at hq' hall
          rw [List.filter_append, List.map_append] at hq'
          rcases List.mem_append.mp hq' with hq' | hq'
          · exact hall q' hq'
          · simp only [List.filter_cons, List.filter_nil, if_true, List.map_cons, List.map_nil, List.mem_singleton] at hq'
            rw [hq']; exact hc
        · show SameContents nh' ((n.setHost q.host _).hosts j).node
          rw [hj]
          simp only [Net.setHost, if_true]
          exact hsame'.symm
      · exact ⟨l, nh, ho, hrun, hne, hall, keep _ _ (observe_other hc hobs)⟩

theorem carry_run {b : Build} {db : Database} {own : IpAddr → Option Nat} {i j : Nat} {u : Message} {n₁ n : Net S}
    {tr : List (Nat × Out)} (env : CarryEnv b j u n₁) (h0 : CarryPending own i j u n₁ n₁) (h : Prompt b db own n₁ tr n) :
    CarryPending own i j u n₁ n ∨ CarryDone b own i j u n₁ n := by
  induction h with
  | refl => exact Or.inl h0
  | step _ h' _ ih =>
    rcases ih with h | h
    · exact carry_pending_step env h h'
    · exact Or.inr (carry_done_step env h h')

/-! ## The start -/

theorem updateTid_sent (n : Node S) (m : Message) :
    (frameOf (n.updateTid m).1 = { frameOf m with tid := (n.updateTid m).1.tid.toNat }) ∧
      (m.tid ≠ 0 → (n.updateTid m).1.tid = m.tid) := by
  obtain ⟨h1, h2, h3, h4, h5, h6, _, _, h9⟩ := updateTid_fields n m
  refine ⟨?_, fun h => by rw [h9, if_neg h]⟩
  unfold frameOf
  simp only [h1, h2, h3, h4, h5, h6]

/-- What the call puts out, and the state after it. -/
theorem transmits_start {b : Build} {db : Database} {n₀ n₁ : Net S} {i : Nat} {m : Message} {outs : List Out} {op : HostOp S}
    {to : IpAddr} (hu : (n₀.hosts i).node.transport.ucast ≠ []) (ht : Transmits op to m) (ha : Net.Api b db n₀ i op outs n₁) :
    ∃ s ∈ (n₀.hosts i).node.transport.ucast, ∃ g port, outs = [.handed g ((n₀.hosts i).node.updateTid m).1,
        .tx ⟨s.ifaddr, ⟨to, port⟩, ((n₀.hosts i).node.updateTid m).1.bytes⟩] ∧
      (∀ k, k ≠ i → n₁.hosts k = n₀.hosts k) ∧ n₁.busy = n₀.busy ∧ n₁.poisoned = n₀.poisoned ∧
      SameContents (n₀.hosts i).node (n₁.hosts i).node ∧ (n₁.hosts i).node.transport = (n₀.hosts i).node.transport := by
  have hupd : ∀ (ok : Nat → Bool) (to : SocketAddr) (m : Message),
      (SameContents (n₀.hosts i).node ((n₀.hosts i).node.sendMessage ok to m).2.2.1 ∧
        ((n₀.hosts i).node.sendMessage ok to m).2.2.1.transport = (n₀.hosts i).node.transport) ∧
      (SameContents (n₀.hosts i).node ((n₀.hosts i).node.postMessage ok to m).2.2.1 ∧
        ((n₀.hosts i).node.postMessage ok to m).2.2.1.transport = (n₀.hosts i).node.transport) := by
    intro ok to m
    unfold Node.sendMessage Node.postMessage
    simp only [Node.updateTid_eq]
    split <;> exact ⟨⟨⟨rfl, rfl, rfl⟩, rfl⟩, ⟨⟨rfl, rfl, rfl⟩, rfl⟩⟩
  have key : ∀ (ok : Nat → Bool) (hok : ∀ k, ok k = true) (to : SocketAddr) (m : Message),
      ∃ s ∈ (n₀.hosts i).node.transport.ucast,
        ((n₀.hosts i).node.sendMessage ok to m).2.2.2 = [.handed m ((n₀.hosts i).node.updateTid m).1,
          .tx ⟨s.ifaddr, to, ((n₀.hosts i).node.updateTid m).1.bytes⟩] ∧
        ((n₀.hosts i).node.postMessage ok to m).2.2.2 = [.handed m ((n₀.hosts i).node.updateTid m).1,
          .tx ⟨s.ifaddr, to, ((n₀.hosts i).node.updateTid m).1.bytes⟩] := by
    intro ok hok to m
    obtain ⟨s, hs, h⟩ := send_works hok hu to ((n₀.hosts i).node.updateTid m).1
    refine ⟨s, hs, ?_, ?_⟩
    · simp only [Node.sendMessage, Node.updateTid_transport, h, List.map_cons, List.map_nil]
    · simp only [Node.postMessage, Node.updateTid_transport, h, List.map_cons, List.map_nil]
  cases ha with
  | mk h' _ ps hapi hstep hps =>
    have hoth : ∀ k, k ≠ i → ({ n₀.setHost i h' with flying := n₀.flying ++ ps } : Net S).hosts k = n₀.hosts k := by
      intro k hk; simp [Net.setHost, hk]
    cases ht with
    | nodeSend to m ok hok =>
      obtain ⟨s, hs, h1, _⟩ := key ok hok to m
      simp only [Host.step, Node.step, h1, Res.bind_ok, Res.pure_eq, Res.ok.injEq, Prod.mk.injEq] at hstep
      refine ⟨s, hs, _, to.port, hstep.2.symm, hoth, rfl, rfl, ?_⟩
      simp only [Net.setHost, if_true]; rw [← hstep.1]; exact (hupd ok to m).1
    | nodePost to m ok hok =>
      obtain ⟨s, hs, _, h1⟩ := key ok hok to m
      simp only [Host.step, Node.step, h1, Res.bind_ok, Res.pure_eq, Res.ok.injEq, Prod.mk.injEq] at hstep
      refine ⟨s, hs, _, to.port, hstep.2.symm, hoth, rfl, rfl, ?_⟩
      simp only [Net.setHost, if_true]; rw [← hstep.1]; exact (hupd ok to m).2
    | send r m ok hok =>
      obtain ⟨s, hs, h1, _⟩ := key ok hok ⟨r.addr.ip, port⟩ (m.setSeoj profileCode)
      simp only [Host.step, Host.sendMessage, Bool.not_true, Bool.false_eq_true, if_false, Res.ok.injEq, Prod.mk.injEq] at hstep
      rw [show nodeProfileCode = profileCode from rfl, h1] at hstep
      refine ⟨s, hs, _, port, hstep.2.symm, hoth, rfl, rfl, ?_⟩
      simp only [Net.setHost, if_true]; rw [← hstep.1]; exact (hupd ok ⟨r.addr.ip, port⟩ (m.setSeoj profileCode)).1
    | post r m ok hok =>
      obtain ⟨s, hs, _, h1⟩ := key ok hok ⟨r.addr.ip, port⟩ (m.setSeoj profileCode)
      simp only [Host.step, Host.postMessage, Res.ok.injEq, Prod.mk.injEq] at hstep
      rw [show nodeProfileCode = profileCode from rfl, h1] at hstep
      refine ⟨s, hs, _, port, hstep.2.symm, hoth, rfl, rfl, ?_⟩
      simp only [Net.setHost, if_true]; rw [← hstep.1]; exact (hupd ok ⟨r.addr.ip, port⟩ (m.setSeoj profileCode)).2

theorem requests_start {b : Build} {db : Database} {own : IpAddr → Option Nat} {n₀ n₁ : Net S} {i j : Nat} {m : Message}
    {outs : List Out} (h : Requests b db own n₀ i j m outs n₁) :
    ∃ u, (frameOf u = { frameOf m with tid := u.tid.toNat }) ∧ (m.tid ≠ 0 → u.tid = m.tid) ∧
      (SameContents (n₀.hosts j).node (n₁.hosts j).node ∧ (i ≠ j → n₁.hosts j = n₀.hosts j)) ∧ CarryEnv b j u n₁ ∧ CarryPending own i j u n₁ n₁ := by
  obtain ⟨op, to, ht, hto, ha⟩ := h.call
  obtain ⟨s, hs, g, port, ho, hoth, hb, hpo, hsame, htr⟩ := transmits_start h.sends ht ha
  have hj : SameContents (n₀.hosts j).node (n₁.hosts j).node ∧ (n₁.hosts j).threads = (n₀.hosts j).threads := by
    by_cases hij : j = i
    · subst hij; exact ⟨hsame, by unfold Host.threads; rw [htr]⟩
    · rw [hoth j hij]; exact ⟨⟨rfl, rfl, rfl⟩, rfl⟩
  obtain ⟨u1, u2⟩ := updateTid_sent (n₀.hosts i).node m
  obtain ⟨_, _, u3, _, _, _, u4, _⟩ := updateTid_fields (n₀.hosts i).node m
  generalize ((n₀.hosts i).node.updateTid m).1 = u at *
  refine ⟨u, u1, u2, ⟨hj.1, fun hij => hoth j hij.symm⟩, ⟨h.fits g u (by rw [ho]; simp), by rw [u4]; exact h.format,
    by rw [u3]; exact h.service, by rw [hj.2]; exact h.asked.calls, by rw [← hj.1.1]; exact h.objects⟩,
    rfl, by rw [hpo]; exact h.asked.sound _, ?_, by rw [hb, h.rest.busy]; simp, Or.inl ?_⟩
  · intro p hp
    rcases h.routed p hp with h1 | ⟨x, hx, h1, h2, h3⟩
    · rw [h.rest.flying] at h1; simp at h1
    · rw [ho] at hx
      simp only [List.mem_cons, reduceCtorEq, Out.tx.injEq, List.not_mem_nil, or_false, false_or] at hx
      subst hx
      exact ⟨h3 j hto, h1, by rw [h2]; exact h.rest.own i s (by unfold Host.threads; simp [hs])⟩
  · obtain ⟨k, hk⟩ := h.asked.listens
    obtain ⟨p, g1, g2, _, _, g3⟩ := h.delivered.2 ⟨s.ifaddr, ⟨to, port⟩, u.bytes⟩ (by rw [ho]; simp) j hto ⟨k, hk⟩
    refine ⟨p, g1, ?_⟩
    obtain ⟨s', h1, h2⟩ := g3
    exact ⟨s', by rw [hj.2]; exact h1, h2⟩

/-! ## C97 -/

/-- C97: a request of whatever kind that is sent to a running host on a network at rest is carried out there (the sending
itself changes no contents of nodes, also if host `j` is the sender): once the network is at rest again, in whatever order threads ran and copies arrived, the objects and the handlers of the host are as
after the node processed the request, once or (where the network delivered several copies) several times, and nothing
else. -/
theorem C97_carried_out (b : Build) (db : Database) (own : IpAddr → Option Nat) (n₀ n₁ n₂ : Net S) (i j : Nat) (m : Message)
    (outs : List Out) (ha : Requests b db own n₀ i j m outs n₁) (tr : List (Nat × Out)) (hrun : Prompt b db own n₁ tr n₂)
    (hend : n₂.flying = [] ∧ n₂.busy = []) :
    (SameContents (n₀.hosts j).node (n₁.hosts j).node ∧ (i ≠ j → n₁.hosts j = n₀.hosts j)) ∧
    ∃ l nh o, (n₁.hosts j).node.run b (arrivals l) = .ok (nh, o) ∧ processed l ≠ [] ∧
      (∀ q ∈ processed l, SentAs m q ∧ own q.sender.ip = some i) ∧ SameContents nh (n₂.hosts j).node := by
  obtain ⟨u, u1, u2, hj, env, inv0⟩ := requests_start ha
  refine ⟨hj, ?_⟩
  rcases carry_run env inv0 hrun with inv | inv
  · exfalso
    have := inv.there
    rw [hend.1, hend.2] at this
    simp at this
  · obtain ⟨l, nh, o, h1, h2, h3, h4⟩ := inv.run
    refine ⟨l, nh, o, h1, h2, ?_, h4⟩
    intro q hq
    obtain ⟨g1, g2, _, g3, g4⟩ := h3 q hq
    have ht : q.tid = u.tid := UInt16.toNat.inj (congrArg Frame.tid g1)
    have hm : u.esvByte = m.esvByte := by have := congrArg Frame.esv u1; exact this
    rw [hm] at g3 g4
    exact ⟨⟨by rw [g1, u1, ht], fun h => by rw [ht]; exact u2 h, g3, g4⟩, g2⟩

/-- As a map of values a message that was sent is the message received. -/
theorem sent_judged {m q : Message} (h : SentAs m q) (hr : isRequestByte m.esvByte = true)
    (hm : m.esvByte = 0x6E → m.properties = []) (o : Object) (hs : List (Handler S)) (v : Values) :
    v.judgedStep hs o q = v.judgedStep hs o m := by
  have h1 : q.esvByte = m.esvByte := by have := congrArg Frame.esv h.frame; exact this
  have h2 : q.deoj = m.deoj := UInt32.toNat.inj (by have := congrArg Frame.deoj h.frame; exact this)
  have hb : (frameOf q).body = (frameOf m).body := by rw [h.frame]
  unfold frameOf at hb
  rw [h1] at hb
  have h3 : q.properties = m.properties := by
    by_cases hw : isWriteReadByte m.esvByte = true
    · have h6 : m.esvByte = 0x6E :=
        (by decide +kernel : ∀ e : UInt8, isRequestByte e = true → isWriteReadByte e = true → e = 0x6E) _ hr hw
      rw [h.double hw, hm h6]
    · simp only [Bool.not_eq_true] at hw
      simp only [hw, Bool.false_eq_true, if_false, Body.single.injEq] at hb
      exact hb
  have h4 : writesOf q = writesOf m ∧ readsOf q = readsOf m := by
    unfold writesOf readsOf
    rw [h1, h3]
    by_cases h6 : m.esvByte = 0x6E
    · rw [h6] at hb ⊢
      simp only [show isWriteReadByte 0x6E = true from rfl, if_true, Body.setGet.injEq] at hb
      rw [hb.1, hb.2]; exact ⟨rfl, rfl⟩
    · simp [h6]
  have h5 : q.esv = m.esv := by unfold Message.esv; rw [h1]
  unfold Values.judgedStep Allowed Approved
  rw [h1, h2, h3, h4.1, h4.2, h5]

theorem fold_sent {m : Message} (hr : isRequestByte m.esvByte = true) (hm : m.esvByte = 0x6E → m.properties = []) (o : Object)
    (hs : List (Handler S)) (l : List Message) (hl : ∀ q ∈ l, SentAs m q) (v : Values) (hne : l ≠ []) :
    l.foldl (Values.judgedStep hs o) v = v.judgedStep hs o m := by
  have key : ∀ (l : List Message), (∀ q ∈ l, SentAs m q) → ∀ v : Values,
      l.foldl (Values.judgedStep hs o) (v.judgedStep hs o m) = v.judgedStep hs o m := by
    intro l
    induction l with
    | nil => intro _ v; rfl
    | cons q l ih =>
      intro hl v
      rw [List.foldl_cons, sent_judged (hl q List.mem_cons_self) hr hm, judged_twice]
      exact ih (fun q hq => hl q (List.mem_cons_of_mem _ hq)) v
  cases l with
  | nil => exact absurd rfl hne
  | cons q l =>
    rw [List.foldl_cons, sent_judged (hl q List.mem_cons_self) hr hm]
    exact key l (fun q hq => hl q (List.mem_cons_of_mem _ hq)) v

open Classical in
/-- C97, what becomes of the values: if moreover the handlers of host `j` decide by service, property and definitions and do
not change objects, the object the request is for ends up with exactly the values the request writes if its attributes allow
the request and a handler approves, and with the values it had otherwise, however often the network repeated the request.
(Property maps, 0x9D to 0x9F, are left out, see C18.) -/
theorem C97_values (b : Build) (db : Database) (own : IpAddr → Option Nat) (n₀ n₁ n₂ : Net S) (i j : Nat) (m : Message)
    (outs : List Out) (ha : Requests b db own n₀ i j m outs n₁) (tr : List (Nat × Out)) (hrun : Prompt b db own n₁ tr n₂)
    (hend : n₂.flying = [] ∧ n₂.busy = []) (hk : ∀ o ∈ (n₀.hosts j).node.objects, KeysOk o)
    (hp : ∀ h ∈ (n₀.hosts j).node.handlers, Passive h) (hst : ∀ h ∈ (n₀.hosts j).node.handlers, Stateless h)
    (hm : m.esvByte = 0x6E → m.properties = []) (o : Object) (ho : findObject (n₀.hosts j).node.objects o.code = some o)
    (c : UInt8) (hc : isMapCode c = false) :
    (n₂.hosts j).node.property o.code c =
      if m.deoj = o.code ∧ Allowed o m ∧ Approved (n₀.hosts j).node.handlers o m then (valuesOf o).write (writesOf m) c
      else valuesOf o c := by
  obtain ⟨⟨⟨k1, k2, k3⟩, _⟩, l, nh, outs', h1, h2, h3, h4⟩ := C97_carried_out b db own n₀ n₁ n₂ i j m outs ha tr hrun hend
  rw [k1] at hk ho
  rw [k2] at hp hst ⊢
  have h5 := C35_judged_values b _ nh l outs' o hk ho hp hst h1 c hc
  rw [fold_sent ha.service hm o _ _ (fun q hq => (h3 q hq).1) _ h2] at h5
  have h6 : (n₂.hosts j).node.property o.code c = nh.property o.code c := by
    unfold Node.property; rw [h4.1]
  rw [h6, h5]
  unfold Values.judgedStep
  rw [ha.service]
  by_cases hx : m.deoj = o.code ∧ Allowed o m ∧ Approved (n₁.hosts j).node.handlers o m
  · rw [if_pos ⟨rfl, hx⟩, if_pos hx]
  · rw [if_neg (fun h => hx h.2), if_neg hx]

/-- The light does what it is told, as often as it is told. -/
theorem light_told {b : Build} {v : UInt8} (hv : v = 0x30 ∨ v = 0x31) (l : List Arrival) :
    ∀ {n n' : Node Bool} {outs : List Out}, LightReached b n → (∀ q ∈ processed l, Orders q v) →
      n.run b (arrivals l) = .ok (n', outs) →
      (processed l ≠ [] ∨ (n.app = decide (v = 0x30) ∧ n.property 0x029101 0x80 = some [v])) →
      n'.app = decide (v = 0x30) ∧ n'.property 0x029101 0x80 = some [v] := by
  induction l with
  | nil =>
    intro n n' outs _ _ hrun h
    simp only [arrivals, List.map_nil, Node.run, Res.ok.injEq, Prod.mk.injEq] at hrun
    rw [← hrun.1]
    rcases h with h | h
    · exact absurd rfl h
    · exact h
  | cons a l ih =>
    intro n n' outs hl hq hrun h
    unfold arrivals at hrun
    rw [List.map_cons] at hrun
    obtain ⟨n₁, o₁, o₂, hs, hrun, _⟩ := run_cons.mp hrun
    have hl₁ := reached_step (op := .receive a.msg a.free a.order a.ok) hl trivial hs
    simp only [Node.step, Node.observeTry] at hs
    cases hf : a.free with
    | false =>
      rw [hf] at hs
      simp only [Bool.not_false, if_true, Res.ok.injEq, Prod.mk.injEq] at hs
      have hpl : processed (a :: l) = processed l := by simp [processed, hf]
      rw [hpl] at hq h
      exact ih hl₁ hq hrun (by rw [← hs.1]; exact h)
    | true =>
      rw [hf] at hs
      simp only [Bool.not_true, Bool.false_eq_true, if_false] at hs
      have hpl : processed (a :: l) = a.msg :: processed l := by simp [processed, hf]
      rw [hpl] at hq
      obtain ⟨g1, g2, _⟩ := C68_switch_partial b _ _ n n₁ a.msg o₁ hl v hv (hq _ List.mem_cons_self) hs
      exact ih hl₁ (fun q h => hq q (List.mem_cons_of_mem _ h)) hrun (Or.inr ⟨g1, g2⟩)

/-- C97 for the example light: an order (0x60) to switch it on or off that any other host sends is obeyed: once the network is at
rest again the light is on or off as ordered, and reports so. -/
theorem C97_light (b : Build) (db : Database) (own : IpAddr → Option Nat) (n₀ n₁ n₂ : Net Bool) (i j : Nat) (m : Message)
    (outs : List Out) (ha : Requests b db own n₀ i j m outs n₁) (tr : List (Nat × Out)) (hrun : Prompt b db own n₁ tr n₂)
    (hend : n₂.flying = [] ∧ n₂.busy = []) (hl : LightReached b (n₀.hosts j).node) (v : UInt8) (hv : v = 0x30 ∨ v = 0x31)
    (hm : Orders m v) (hij : i ≠ j) :
    (n₂.hosts j).node.app = decide (v = 0x30) ∧ (n₂.hosts j).node.property 0x029101 0x80 = some [v] := by
  obtain ⟨⟨_, hj⟩, l, nh, outs', h1, h2, h3, h4⟩ := C97_carried_out b db own n₀ n₁ n₂ i j m outs ha tr hrun hend
  rw [hj hij] at h1
  have hq : ∀ q ∈ processed l, Orders q v := by
    intro q hq
    have h := (h3 q hq).1
    have g1 : q.esvByte = m.esvByte := by have := congrArg Frame.esv h.frame; exact this
    have g2 : q.deoj = m.deoj := UInt32.toNat.inj (by have := congrArg Frame.deoj h.frame; exact this)
    have hb : (frameOf q).body = (frameOf m).body := by rw [h.frame]
    unfold frameOf at hb
    rw [g1, hm.1] at hb
    simp only [show isWriteReadByte 0x60 = false from rfl, Bool.false_eq_true, if_false, Body.single.injEq] at hb
    exact ⟨g1.trans hm.1, g2.trans hm.2.1, hb.trans hm.2.2⟩
  obtain ⟨g1, g2⟩ := light_told hv l hl hq h1 (Or.inl h2)
  refine ⟨by rw [← h4.2.2]; exact g1, ?_⟩
  unfold Node.property at g2 ⊢
  rw [← h4.1]; exact g2

/-! ## Executions -/

/-- Host 0 with node `a`, host 1 with node `c`. -/
def exHosts (a c : Node S) : Net S :=
  ⟨fun i => if i = 0 then .ofNode a else if i = 1 then .ofNode c else .ofNode { a with transport := Manager.new }, [], [],
    fun _ _ => false, fun _ => false⟩

/-- Host 0 sends a message to host 1. -/
theorem requests_exist (b : Build) (db : Database) (a c : Node S) (ms : List Server)
    (ha : a.transport = ⟨[⟨.v4 0xC0A80001, [.node], .running⟩], []⟩) (os : List ObserverRef)
    (hc : c.transport = ⟨[⟨.v4 0xC0A80002, .node :: os, .running⟩], ms⟩)
    (hms : ∀ s ∈ ms, s.ifaddr = .v4 0xC0A80002 ∧ s.observers.head? = some .node)
    (hob : ∀ o ∈ c.objects, ValidObject b o) (m : Message) (hf : m.isFormat1 = true) (hs : isRequestByte m.esvByte = true)
    (hfit : Fits (a.updateTid m).1) :
    ∃ outs n₁, Requests b db exOwn (exHosts a c) 0 1 m outs n₁ := by
  let t : Tx := ⟨.v4 0xC0A80001, ⟨.v4 0xC0A80002, 3610⟩, (a.updateTid m).1.bytes⟩
  let p : Packet := ⟨⟨.v4 0xC0A80001, 3610⟩, 1, 0, (a.updateTid m).1.bytes⟩
  have hthr : (exHosts a c).hosts 1 = .ofNode c := rfl
  have hl : Listening (exHosts a c) 1 0 := by
    refine ⟨⟨.v4 0xC0A80002, .node :: os, .running⟩, ?_, rfl⟩
    rw [hthr]; simp [Host.threads, Host.ofNode, hc]
  have htx : ∀ x, Out.tx x ∈ [Out.handed m (a.updateTid m).1, .tx t] → x = t := by
    intro x hx
    simpa using hx
  have hstep : ((exHosts a c).hosts 0).step b db (.node (.send ⟨.v4 0xC0A80002, 3610⟩ m allOk)) =
      .ok ({ (Host.ofNode a) with node := (a.updateTid m).2 }, [.handed m (a.updateTid m).1, .tx t]) := by
    have h1 : ((a.updateTid m).2.transport.send allOk ⟨.v4 0xC0A80002, 3610⟩ (a.updateTid m).1).2 = [t] := by
      rw [Node.updateTid_transport, ha]; rfl
    show (Host.ofNode a).step b db _ = _
    simp only [Host.step, Node.step, Node.sendMessage, Host.ofNode, h1, Res.bind_ok, Res.pure_eq, List.map_cons, List.map_nil]
  have api : Net.Api b db (exHosts a c) 0 (.node (.send ⟨.v4 0xC0A80002, 3610⟩ m allOk))
      [.handed m (a.updateTid m).1, .tx t] _ :=
    .mk _ _ [p] trivial hstep (by
      intro q hq
      rw [List.mem_singleton.mp hq]
      exact ⟨t, by simp, rfl, rfl⟩)
  refine ⟨_, _, ⟨⟨rfl, rfl, ?_⟩, ?_, ⟨⟨0, hl⟩, ?_, ?_, fun _ => rfl⟩, hob, hf, hs,
    ⟨_, .v4 0xC0A80002, .nodeSend ⟨.v4 0xC0A80002, 3610⟩ m allOk (fun _ => rfl), rfl, api⟩, ?_, ?_, ?_⟩⟩
  · intro i s hs
    unfold exHosts at hs
    simp only [] at hs
    split at hs
    · rename_i h; subst h
      simp only [Host.threads, Host.ofNode, ha, List.append_nil, List.mem_cons, List.not_mem_nil, or_false] at hs
      rw [hs]; rfl
    · split at hs
      · rename_i h; subst h
        simp only [Host.threads, Host.ofNode, hc, List.cons_append, List.nil_append, List.mem_cons] at hs
        rcases hs with hs | hs
        · rw [hs]; rfl
        · rw [(hms s hs).1]; rfl
      · simp [Host.threads, Host.ofNode, Manager.new] at hs
  · show a.transport.ucast ≠ []
    rw [ha]; simp
  · show c.transport.ucast ≠ []
    rw [hc]; simp
  · intro s hs
    rw [hthr] at hs
    simp only [Host.threads, Host.ofNode, hc, List.cons_append, List.nil_append, List.mem_cons] at hs
    rcases hs with hs | hs
    · rw [hs]; rfl
    · exact (hms s hs).2
  · refine ⟨?_, ?_⟩
    · intro q hq
      have hq : q = p := by simpa [exHosts] using hq
      subst hq
      exact ⟨t, by simp, rfl, rfl⟩
    · intro x hx j hj _
      rw [htx x hx] at hj ⊢
      have : j = 1 := by simpa [exOwn, t] using hj.symm
      subst this
      exact ⟨p, by simp [exHosts], rfl, rfl, rfl, hl⟩
  · intro q hq
    have hq : q = p := by simpa [exHosts] using hq
    subst hq
    exact Or.inr ⟨t, by simp, rfl, rfl, by intro j hj; revert hj; simp [exOwn, t, p]⟩
  · intro g u hu
    have : g = m ∧ u = (a.updateTid m).1 := by simpa using hu
    rw [this.2]; exact hfit

/-- A write request that asks for no answer. -/
def exCommand : Message := (exPost .WriteRequest).addProperty ⟨0xB0, [0x42]⟩

/-- Non-vacuity of `C97_carried_out` and `C97_values`: host 0 sends a write request without response to an object of host 1,
the network comes to rest, and the object has the new value. -/
example (db : Database) : ∃ (n₀ n₁ n₂ : Net Nat) (outs : List Out) (tr : List (Nat × Out)) (o : Object),
    Requests .dev db exOwn n₀ 0 1 exCommand outs n₁ ∧ Prompt .dev db exOwn n₁ tr n₂ ∧ (n₂.flying = [] ∧ n₂.busy = []) ∧
    (∀ o ∈ (n₀.hosts 1).node.objects, KeysOk o) ∧ (∀ h ∈ (n₀.hosts 1).node.handlers, Passive h) ∧
    (∀ h ∈ (n₀.hosts 1).node.handlers, Stateless h) ∧ (exCommand.esvByte = 0x6E → exCommand.properties = []) ∧
    findObject (n₀.hosts 1).node.objects o.code = some o ∧ exCommand.esvByte = 0x60 ∧
    (n₀.hosts 1).node.property o.code 0xB0 = some [0x30] ∧ (n₂.hosts 1).node.property o.code 0xB0 = some [0x42] := by
  obtain ⟨o, ho, hk, hk2, hval, hwr, hcap, hcode⟩ :
      ∃ o, exLight = .ok o ∧ (∀ k : UInt8, ((o.properties k).all (fun p => p.code == k)) = true) ∧
      (∀ k : UInt8, ((o.properties k).all (fun p => decide (0x80 ≤ p.code))) = true) ∧
      valuesOf o 0xB0 = some [0x30] ∧
      (o.properties 0xB0).all (fun p => p.writeAttr != .Prohibited) = true ∧
      (o.properties 0xB0).all (fun p => p.capacity == 0 || decide (1 ≤ p.capacity)) = true ∧ o.code = 0x029001 := by
    refine ⟨_, rfl, by decide +kernel, by decide +kernel, by decide +kernel, by decide +kernel, by decide +kernel,
      by decide +kernel⟩
  have hkeys : KeysOk o := by
    intro k p hp
    have := hk k
    rw [hp] at this
    simpa using this
  have hvalid : ValidObject .dev o := by
    refine Or.inr ?_
    intro k p hp
    have := hk2 k
    rw [hp] at this
    simpa using this
  obtain ⟨outs, n₁, hreq⟩ := requests_exist .dev db exCaller (exCounting o) [] rfl [] rfl (by simp)
    (by intro x hx
        have hx : x = o := by simpa [exCounting] using hx
        rw [hx]; exact hvalid) exCommand (by decide +kernel) (by decide +kernel) (by unfold Fits; decide +kernel)
  obtain ⟨tr, n₂, hrun, hend⟩ := (C84_progress (S := Nat) .dev db exOwn).2.2 n₁
  have h1 : ∀ x ∈ ((exHosts exCaller (exCounting o)).hosts 1).node.objects, KeysOk x := by
    intro x hx
    have hx : x = o := by simpa [exHosts, Host.ofNode, exCounting] using hx
    rw [hx]; exact hkeys
  have hh : ((exHosts exCaller (exCounting o)).hosts 1).node.handlers = [countCalls] := rfl
  have h2 : ∀ h ∈ ((exHosts exCaller (exCounting o)).hosts 1).node.handlers, Passive h := by
    intro h hx
    rw [hh] at hx
    rw [List.mem_singleton.mp hx]
    exact fun _ _ _ _ => rfl
  have h3 : ∀ h ∈ ((exHosts exCaller (exCounting o)).hosts 1).node.handlers, Stateless h := by
    intro h hx
    rw [hh] at hx
    rw [List.mem_singleton.mp hx]
    exact fun _ _ _ _ _ _ _ _ => rfl
  have h4 : exCommand.esvByte = 0x6E → exCommand.properties = [] := by intro h; exact absurd h (by decide +kernel)
  have h5 : findObject ((exHosts exCaller (exCounting o)).hosts 1).node.objects o.code = some o := by
    simp [exHosts, Host.ofNode, exCounting, findObject]
  have hw : writesOf exCommand = [⟨0xB0, [0x42]⟩] := by decide +kernel
  have hr : readsOf exCommand = [] := by decide +kernel
  have hv := C97_values .dev db exOwn _ n₁ n₂ 0 1 exCommand outs hreq tr hrun hend h1 h2 h3 h4 o h5 0xB0 rfl
  obtain ⟨p, hp⟩ : ∃ p, o.properties 0xB0 = some p := by
    unfold valuesOf at hval
    cases hq : o.properties 0xB0 with
    | none => rw [hq] at hval; simp at hval
    | some p => exact ⟨p, rfl⟩
  rw [if_pos ⟨by rw [hcode]; decide +kernel, ⟨by
      intro w hw'
      rw [hw] at hw'
      rw [List.mem_singleton.mp hw']
      rw [hp] at hwr hcap
      exact ⟨p, hp, by simpa using hwr, by simpa using hcap⟩, by rw [hr]; simp⟩,
    Or.inr ⟨countCalls, by rw [hh]; simp, fun _ _ _ => rfl⟩⟩, hw] at hv
  refine ⟨_, n₁, n₂, outs, tr, o, hreq, hrun, hend, h1, h2, h3, h4, h5, by decide +kernel, ?_, ?_⟩
  · unfold Node.property
    rw [h5]
    unfold valuesOf at hval
    rw [hp] at hval
    simpa [Object.findProperty, hp] using hval
  · rw [hv]
    simp [Values.write, lastWrite, valuesOf, hp]

/-- A light that has been started, with its receiver threads. -/
theorem light_started : ∃ n : Node Bool, LightReached .release n ∧ n.app = false ∧
    n.transport = ⟨[⟨.v4 0xC0A80002, [.node, .device], .running⟩], [⟨.v4 0xC0A80002, [.node, .device], .running⟩]⟩ := by
  obtain ⟨db, hdb, _⟩ := C21_builds .release .ascending
  obtain ⟨d, n, o, h1, h2, h3, h4⟩ := light_new hdb (uuid := fun _ => List.replicate 16 1) (fun _ => rfl) .ascending
  have hr : LightReached .release n := ⟨.ascending, db, _, .ascending, d, n, [], [], hdb, fun _ => rfl, h1, rfl, by simp⟩
  have hto : n.transport = Manager.new ∧ n.observers = [.node, .device] := by
    obtain ⟨n₀, hn, _, hcodes, hobs, _, ht, _⟩ := newNode_inv hdb (uuid₁ := List.replicate 16 1)
      (uuid₂ := List.replicate 16 1) rfl rfl (HashOrder.ascending.sub 0) false
    unfold monoLightNew Device.new at h1
    rw [hn] at h1
    obtain ⟨r, hr, h1⟩ := Res.bind_eq_ok.mp h1
    simp only [Res.bind_ok] at hr
    unfold Device.newWithNode at hr
    obtain ⟨ob, _, hr⟩ := Res.bind_eq_ok.mp hr
    obtain ⟨n₁, hn₁, hr⟩ := Res.bind_eq_ok.mp hr
    simp only [Res.pure_eq, Res.ok.injEq, Prod.mk.injEq] at hr h1
    rw [← h1.2, ← hr]
    show n₁.transport = _ ∧ n₁.observers = _
    rw [← ht, addObject_frame hn₁]
    refine ⟨rfl, ?_⟩
    show n₀.observers ++ [.node] ++ [.device] = _
    rw [hobs]; rfl
  have hst : Node.startTransport [⟨.v4 0xC0A80002, fun _ => true, true⟩] [⟨.v4 0xC0A80002, fun _ => true, true⟩]
      n.transport = .ok (true, ⟨[⟨.v4 0xC0A80002, [], .running⟩], [⟨.v4 0xC0A80002, [], .running⟩]⟩) := by
    rw [hto.1]; rfl
  have hex : ∃ r n' outs, n.start [⟨.v4 0xC0A80002, fun _ => true, true⟩] [⟨.v4 0xC0A80002, fun _ => true, true⟩]
      allOk = .ok (r, n', outs) := by
    unfold Node.start
    rw [hst]
    simp only [Res.bind_ok, Bool.not_true, Bool.false_eq_true, if_false, Res.pure_eq]
    split <;> exact ⟨_, _, _, rfl⟩
  obtain ⟨r, n', outs, h⟩ := hex
  obtain ⟨up, t, ht', hcase⟩ := start_result h
  rw [hst] at ht'
  simp only [Res.ok.injEq, Prod.mk.injEq] at ht'
  obtain ⟨rfl, rfl⟩ := ht'
  rcases hcase with ⟨hu, _⟩ | ⟨_, n₀, hn, _, hn', _⟩
  · cases hu
  · have hf := announce_frame allOk n₀
    have htr : n'.transport =
        ⟨[⟨.v4 0xC0A80002, [.node, .device], .running⟩], [⟨.v4 0xC0A80002, [.node, .device], .running⟩]⟩ := by
      rw [hn', hf.1, hn, hto.2]; rfl
    have hrun : n'.isRunning = true := by unfold Node.isRunning; rw [htr]; rfl
    have hl : LightReached .release n' := by
      refine reached_step (op := .start [⟨.v4 0xC0A80002, fun _ => true, true⟩] [⟨.v4 0xC0A80002, fun _ => true, true⟩] allOk)
        (outs := outs) hr trivial ?_
      simp only [Node.step, h, Res.bind_ok, Res.pure_eq]
    exact ⟨n', hl, (C68_fails_start _ _ _ _ _ _ _ _ hr h hrun).1.trans h3, htr⟩

/-- Non-vacuity of `C97_light`: a light program runs on host 1, and host 0 orders it to switch the light on. -/
example (db : Database) : ∃ (n₀ n₁ n₂ : Net Bool) (outs : List Out) (tr : List (Nat × Out)) (m : Message),
    Requests .release db exOwn n₀ 0 1 m outs n₁ ∧ Prompt .release db exOwn n₁ tr n₂ ∧ (n₂.flying = [] ∧ n₂.busy = []) ∧
    LightReached .release (n₀.hosts 1).node ∧ Orders m 0x30 ∧ (n₀.hosts 1).node.app = false ∧
    (n₂.hosts 1).node.app = true := by
  obtain ⟨c, hl, happ, htr⟩ := light_started
  have ho : Orders (decoded (lightFrame 0x60 [1, 0x80, 1, 0x30])) 0x30 := ⟨by decide, by decide, by decide⟩
  obtain ⟨outs, n₁, hreq⟩ := requests_exist .release db
    (⟨⟨[⟨.v4 0xC0A80001, [.node], .running⟩], []⟩, [], 0, none, 0, [], [.node], false⟩ : Node Bool) c
    [⟨.v4 0xC0A80002, [.node, .device], .running⟩] rfl [.device] htr
    (by intro s hs; rw [List.mem_singleton.mp hs]; exact ⟨rfl, rfl⟩) (fun _ _ => Or.inl rfl)
    (decoded (lightFrame 0x60 [1, 0x80, 1, 0x30])) (by decide +kernel) (by decide +kernel) (by unfold Fits; decide +kernel)
  obtain ⟨tr, n₂, hrun, hend⟩ := (C84_progress (S := Bool) .release db exOwn).2.2 n₁
  exact ⟨_, n₁, n₂, outs, tr, _, hreq, hrun, hend, hl, ho, happ,
    (C97_light .release db exOwn _ n₁ n₂ 0 1 _ outs hreq tr hrun hend hl 0x30 (Or.inl rfl) ho (by decide)).1⟩

end Uecho
