import Verif.Spec.Answered
import Verif.Props.Linear
import Verif.Props.NetworkDiscovery
/-!
# Posted requests get their answers: C84
-/
namespace Uecho
open Spec
variable {S : Type}

/-! ## What is received -/

/-- A datagram that fits is received as what was sent. -/
theorem fits_received {u : Message} (hf : u.isFormat1 = true) (h5 : u.esvByte ≠ 0x5E) (h : Fits u) (src : SocketAddr) :
    ∃ m, recvLoop [.datagram u.bytes src] = ([m], .running) ∧ m.sender = src ∧ m.esvByte = u.esvByte ∧
      m.deoj = u.deoj ∧ m.tid = u.tid := by
  have he := Message.bytes_eq_encode u hf h5
  have hl := h.2
  rw [he] at hl
  obtain ⟨m, h1, _⟩ := recv_frame (frameOf u) (frameOf_valid _ h.1) hl src
  rw [← he] at h1
  obtain ⟨g1, g2, g3, _, g5, _⟩ := decode_faithful h.1 h5 h1
  exact ⟨m, h1, g1, g2, g3, g5⟩

/-- A copy of the request. -/
def AskM (own : IpAddr → Option Nat) (i : Nat) (e : UInt8) (t : UInt16) (d : UInt32) (m : Message) : Prop :=
  m.esvByte = e ∧ m.tid = t ∧ m.deoj = d ∧ own m.sender.ip = some i ∧ Received m

/-- An answer to it. -/
def RespM (t : UInt16) (m : Message) : Prop :=
  isAnswerByte m.esvByte = true ∧ isRequestByte m.esvByte = false ∧ m.esvByte ≠ 0x5E ∧ m.tid = t ∧ Received m

theorem answer_bytes {e svc : UInt8} (he : e = 0x61 ∨ e = 0x62) (h : svc = errorByte e ∨ successByte e = some svc) :
    isResponseByte svc = true ∧ isRequestByte svc = false ∧ svc ≠ 0x5E ∧ isNotificationByte svc = false ∧
      isAnswerByte svc = true := by
  rcases he with rfl | rfl <;> rcases h with rfl | h
  · decide
  · have : svc = 0x71 := by simpa [successByte] using h.symm
    subst this; decide
  · decide
  · have : svc = 0x72 := by simpa [successByte] using h.symm
    subst this; decide

theorem send_works {ok : Nat → Bool} (hok : ∀ k, ok k = true) {m : Manager} (hm : m.ucast ≠ []) (to : SocketAddr)
    (u : Message) : ∃ s ∈ m.ucast, (m.send ok to u).2 = [⟨s.ifaddr, to, u.bytes⟩] := by
  rcases Manager.send_cases ok m to u with ⟨h, _⟩ | ⟨_, h⟩
  · have := ((C44_send ok m to u).1).mpr ⟨0, List.length_pos_iff.mpr hm, hok 0⟩
    rw [h] at this; simp at this
  · exact h

/-! ## The asked host -/

/-- Whatever an observer does with a copy of the request, all datagrams it puts out are answers to the asking host. -/
theorem ask_invoke {b : Build} {db : Database} {own : IpAddr → Option Nat} {i : Nat} {e : UInt8} {t : UInt16} {d : UInt32}
    (he : e = 0x61 ∨ e = 0x62) (ht : t ≠ 0) {h h' : Host S} (hk : ∀ o ∈ h.node.objects, KeysOk o) {m : Message}
    (hm : AskM own i e t d m) {env : CallEnv} {o : ObserverRef} {outs : List Out}
    (hi : h.invoke b db env m o = .ok (h', outs)) (hfit : ∀ g u, Out.handed g u ∈ outs → Fits u) :
    ∀ x ∈ txs outs, own x.to.ip = some i ∧ (∃ v, x.bytes[10]? = some v ∧ isAnswerByte v = true) ∧
      ∀ src : SocketAddr, ∃ a, recvLoop [.datagram x.bytes src] = ([a], .running) ∧ RespM t a := by
  cases o with
  | controller =>
    simp only [Host.invoke] at hi
    obtain ⟨r, _, hi⟩ := Res.bind_eq_ok.mp hi
    simp only [Res.pure_eq, Res.ok.injEq, Prod.mk.injEq] at hi
    rw [← hi.2]; simp [txs]
  | device => simp only [Host.invoke, Res.ok.injEq, Prod.mk.injEq] at hi; rw [← hi.2]; simp [txs]
  | user k => simp only [Host.invoke, Res.ok.injEq, Prod.mk.injEq] at hi; rw [← hi.2]; simp [txs]
  | node =>
    simp only [Host.invoke] at hi
    obtain ⟨r, hr, hi⟩ := Res.bind_eq_ok.mp hi
    simp only [Res.pure_eq, Res.ok.injEq, Prod.mk.injEq] at hi
    obtain ⟨rfl, rfl⟩ := hi
    unfold Node.observeTry at hr
    split at hr
    · simp only [Res.ok.injEq] at hr; rw [← hr]; simp [txs]
    · intro x hx
      obtain ⟨u, hu⟩ := mem_txs_reply (n' := r.1) (outs := r.2) hr hx
      obtain ⟨_, _, _, _, svc, hh, htx, hcase⟩ := Node.reply_cases (n' := r.1) (outs := r.2) hk hr hu
      obtain ⟨m1, m2, m3, m4, m5⟩ := hm
      have hsvc : svc = errorByte e ∨ successByte e = some svc := by
        rw [← m1]
        rcases hcase with ⟨h1, _⟩ | ⟨h1, _⟩
        · exact Or.inl h1
        · exact Or.inr h1
      obtain ⟨s1, s2, s3, s4, s5⟩ := answer_bytes he hsvc
      rw [s4] at htx
      simp only [Bool.false_eq_true, if_false] at htx
      have hfu : Fits u := by
        unfold replies handed at hu
        obtain ⟨⟨g, u'⟩, hg, hu'⟩ := List.mem_map.mp hu
        simp only [] at hu'
        subst hu'
        obtain ⟨y, hy, hyy⟩ := List.mem_filterMap.mp hg
        cases y <;> simp at hyy
        obtain ⟨rfl, rfl⟩ := hyy
        exact hfit _ _ hy
      have hxe : x.to = ⟨m.sender.ip, port⟩ ∧ x.bytes = u.bytes := by
        rw [htx] at hx
        rcases Manager.send_cases env.ok h.node.transport ⟨m.sender.ip, port⟩ u with ⟨_, h0⟩ | ⟨_, s, _, h0⟩
        · rw [h0] at hx; simp at hx
        · rw [h0] at hx
          rw [List.mem_singleton.mp hx]
          exact ⟨rfl, rfl⟩
      refine ⟨by rw [hxe.1]; exact m4, ⟨svc, by rw [hxe.2, bytes_esv, hh.esv], s5⟩, fun src => ?_⟩
      rw [hxe.2]
      obtain ⟨a, g1, g2, g3, g4, g5⟩ := fits_received hh.fmt (by rw [hh.esv]; exact s3) hfu src
      refine ⟨a, g1, ?_, ?_, ?_, ?_, ⟨_, _, g1⟩⟩
      · rw [g3, hh.esv]; exact s5
      · rw [g3, hh.esv]; exact s2
      · rw [g3, hh.esv]; exact s3
      · rw [g5, hh.tid, m2, if_neg ht]

/-- The node does not panic over the request, and puts out an answer. -/
theorem ask_node {b : Build} {db : Database} {own : IpAddr → Option Nat} {i : Nat} {e : UInt8} {t : UInt16} {d : UInt32}
    (he : e = 0x61 ∨ e = 0x62) {h : Host S} (hk : ∀ o ∈ h.node.objects, KeysOk o ∧ ValidObject b o)
    (htarget : ∃ o ∈ h.node.objects, o.code = d) (hu : h.node.transport.ucast ≠ []) {m : Message} (hm : AskM own i e t d m)
    {env : CallEnv} (hfree : env.nodeFree = true) (hok : ∀ k, env.ok k = true) :
    ∃ h' outs, h.invoke b db env m .node = .ok (h', outs) ∧ ∃ x, x ∈ txs outs := by
  obtain ⟨m1, m2, m3, m4, m5⟩ := hm
  have hreq : isRequestByte m.esvByte = true := by rw [m1]; rcases he with rfl | rfl <;> decide
  cases hobs : h.node.observe b env.ω env.ok m with
  | panic =>
    have := (C57_receive_panics_iff b env.ω env.ok h.node (fun o ho => (hk o ho).2) m m5).mp hobs
    rw [m1] at this
    rcases he with rfl | rfl <;> exact absurd this.1 (by decide)
  | ok r =>
    obtain ⟨o, ho, hoc⟩ := htarget
    cases hf : findObject h.node.objects m.deoj with
    | none => exact absurd (hoc.trans m3.symm) (findObject_none_iff.mp hf o ho)
    | some dst =>
      obtain ⟨pre, post, h1, h2, h3⟩ := findObject_split hf
      obtain ⟨copy, app, _, _, _, hc⟩ := Node.observe_target (n' := r.1) (outs := r.2) ⟨h1, h2, h3⟩
        (hk dst (by rw [h1]; simp)).1 hreq hobs
      refine ⟨{ h with node := r.1 }, r.2, ?_, ?_⟩
      · simp only [Host.invoke, Node.observeTry, hfree, Bool.not_true, Bool.false_eq_true, if_false, hobs, Res.bind_ok,
          Res.pure_eq]
      · have key : ∀ (n₁ : Node S) (res : Message), n₁.transport = h.node.transport →
            isNotificationByte res.esvByte = false → ∃ x, x ∈ Node.transmit env.ok n₁ m res := by
          intro n₁ res h4 h5
          unfold Node.transmit
          rw [h5, h4]
          simp only [Bool.false_eq_true, if_false]
          obtain ⟨s, _, h6⟩ := send_works hok hu ⟨m.sender.ip, port⟩ (n₁.updateTid res).1
          rw [h6]
          exact ⟨_, List.mem_singleton.mpr rfl⟩
        rcases hc with ⟨_, _, ho⟩ | ⟨_, dst', _, _, _, hc⟩
        · rw [ho, txs_handed_cons]
          refine key _ _ rfl ?_
          rw [(errorMessage_header m hreq).esv, m1]
          exact (answer_bytes he (Or.inl rfl)).2.2.2.1
        · rcases hc with ⟨h0, _⟩ | ⟨svc, h0, _, ho⟩
          · rw [m1] at h0; rcases he with rfl | rfl <;> simp [successByte] at h0
          · rw [ho, txs_handed_cons]
            refine key _ _ rfl ?_
            rw [(okMessage_header dst' m svc).esv]
            rw [m1] at h0
            exact (answer_bytes he (Or.inr h0)).2.2.2.1

/-! ## The asking host -/

/-- The node takes an answer: it transmits nothing, and if it waits for it, it delivers it. -/
theorem resp_node {b : Build} {db : Database} {t : UInt16} {h : Host S} {m : Message} (hm : RespM t m) {env : CallEnv}
    (hfree : env.nodeFree = true) :
    ∃ h' outs, h.invoke b db env m .node = .ok (h', outs) ∧
      (h.node.lastTid = t → ∃ a, deliveries outs = (h.node.post.map (fun ch => (ch, a))).toList ∧ h'.node.post = none ∧
        isAnswerByte a.esvByte = true) := by
  obtain ⟨m1, m2, m3, m4, m5⟩ := hm
  obtain ⟨hf, hs⟩ := received_fields m5
  obtain ⟨n', outs, hobs⟩ := observe_response_ok b env.ω env.ok h.node m (by
    unfold isAnswerByte at m1; simp only [Bool.and_eq_true] at m1; exact m1.1) hf hs m3
  refine ⟨{ h with node := n' }, outs, ?_, ?_⟩
  · simp only [Host.invoke, Node.observeTry, hfree, Bool.not_true, Bool.false_eq_true, if_false, hobs, Res.bind_ok,
      Res.pure_eq]
  · intro ht
    have hp := observe_post hobs
    rw [if_pos ⟨m2, by rw [m4, ht]⟩] at hp
    obtain ⟨h1, a, hc, h2⟩ := hp
    have : a.esvByte = m.esvByte := congrArg Frame.esv (clone_frame hf hs hc)
    exact ⟨a, h2, h1, by rw [this]; exact m1⟩

/-- What an observer does with an answer. -/
theorem resp_invoke {b : Build} {db : Database} {t : UInt16} {h h' : Host S} {m : Message} (hm : RespM t m) {env : CallEnv}
    {o : ObserverRef} {outs : List Out} (hi : h.invoke b db env m o = .ok (h', outs)) :
    txs outs = [] ∧ h'.node.transport = h.node.transport ∧ (h.node.post = none → h'.node.post = none ∧ deliveries outs = []) := by
  cases o with
  | controller =>
    simp only [Host.invoke] at hi
    obtain ⟨r, _, hi⟩ := Res.bind_eq_ok.mp hi
    simp only [Res.pure_eq, Res.ok.injEq, Prod.mk.injEq] at hi
    rw [← hi.1, ← hi.2]; exact ⟨rfl, rfl, fun h => ⟨h, rfl⟩⟩
  | device =>
    simp only [Host.invoke, Res.ok.injEq, Prod.mk.injEq] at hi
    rw [← hi.1, ← hi.2]; exact ⟨rfl, rfl, fun h => ⟨h, rfl⟩⟩
  | user k =>
    simp only [Host.invoke, Res.ok.injEq, Prod.mk.injEq] at hi
    rw [← hi.1, ← hi.2]; exact ⟨rfl, rfl, fun h => ⟨h, rfl⟩⟩
  | node =>
    simp only [Host.invoke] at hi
    obtain ⟨r, hr, hi⟩ := Res.bind_eq_ok.mp hi
    simp only [Res.pure_eq, Res.ok.injEq, Prod.mk.injEq] at hi
    obtain ⟨rfl, rfl⟩ := hi
    unfold Node.observeTry at hr
    split at hr
    · simp only [Res.ok.injEq] at hr; rw [← hr]; exact ⟨rfl, rfl, fun h => ⟨h, rfl⟩⟩
    · have hr' : h.node.observe b env.ω env.ok m = .ok (r.1, r.2) := hr
      refine ⟨(Node.observe_nonrequest hm.2.1 hr').2.1, (observe_frame hr').2.1, ?_⟩
      intro hp
      have := observe_post hr'
      split at this
      · obtain ⟨h1, a, _, h2⟩ := this
        rw [hp] at h2
        exact ⟨h1, h2⟩
      · exact ⟨by rw [this.1]; exact hp, this.2⟩

/-! ## The invariant -/

/-- Where the request and its answers are. -/
structure AskInv (own : IpAddr → Option Nat) (i j : Nat) (e : UInt8) (t : UInt16) (d : UInt32) (ch : Nat) (n₁ : Net S)
    (tr : List (Nat × Out)) (n : Net S) : Prop where
  fly : ∀ p ∈ n.flying, (p.host = j ∧ IsPacket (AskM own i e t d) p) ∨ (p.host = i ∧ IsPacket (RespM t) p)
  busy : ∀ q ∈ n.busy, (q.host = j ∧ AskM own i e t d q.msg) ∨ (q.host = i ∧ RespM t q.msg)
  keys : ∀ o ∈ (n.hosts j).node.objects, KeysOk o
  only : ∀ k x, (k, Out.tx x) ∈ tr → k = j ∧ ∃ v, x.bytes[10]? = some v ∧ isAnswerByte v = true
  state : (∃ a, deliveries (outsOf i tr) = [(ch, a)] ∧ (n.hosts i).node.post = none ∧ isAnswerByte a.esvByte = true) ∨
    (deliveries (outsOf i tr) = [] ∧ n.hosts i = n₁.hosts i ∧ (∀ q ∈ n.busy, q.host = i → q.todo.head? = some .node) ∧
      ((n.poisoned j .node = false ∧ n.hosts j = n₁.hosts j ∧ (∀ q ∈ n.busy, q.host = j → q.todo.head? = some .node) ∧
          ((∃ p ∈ n.flying, p.host = j ∧ Listening n j p.srv) ∨ ∃ q ∈ n.busy, q.host = j)) ∨
       ((∃ p ∈ n.flying, p.host = i ∧ Listening n i p.srv) ∨ ∃ q ∈ n.busy, q.host = i)))
  sound : n.poisoned i .node = false

/-- What holds right after the request was posted. -/
structure AskEnv (b : Build) (own : IpAddr → Option Nat) (i j : Nat) (e : UInt8) (t : UInt16) (d : UInt32) (ch : Nat)
    (n₁ : Net S) : Prop where
  other : i ≠ j
  esv : e = 0x61 ∨ e = 0x62
  tid : t ≠ 0
  asker : Running n₁ i
  asked : Running n₁ j
  objects : ∀ o ∈ (n₁.hosts j).node.objects, KeysOk o ∧ ValidObject b o
  target : ∃ o ∈ (n₁.hosts j).node.objects, o.code = d
  post : (n₁.hosts i).node.post = some ch
  last : (n₁.hosts i).node.lastTid = t

theorem listening_congr {n n' : Net S} {i k : Nat} (h : n'.hosts i = n.hosts i) : Listening n' i k ↔ Listening n i k := by
  unfold Listening; rw [h]

theorem ask_step {b : Build} {db : Database} {own : IpAddr → Option Nat} {i j : Nat} {e : UInt8} {t : UInt16} {d : UInt32}
    {ch : Nat} {n₁ n n' : Net S} {tr : List (Nat × Out)} {k : Nat} {outs : List Out} (env : AskEnv b own i j e t d ch n₁)
    (inv : AskInv own i j e t d ch n₁ tr n) (h : Reliable b db own n k outs n') (hr : Routed own n outs n')
    (hfit : ∀ g u, Out.handed g u ∈ outs → Fits u) :
    AskInv own i j e t d ch n₁ (tr ++ outs.map (fun o => (k, o))) n' := by
  have hij := env.other
  cases h with
  | receive l₁ l₂ p s hf hs hrun hidle =>
    have hp : p ∈ n.flying := by rw [hf]; simp
    obtain ⟨m, hm, hmc⟩ : ∃ m, recvLoop [.datagram p.bytes p.src] = ([m], .running) ∧
        ((p.host = j ∧ AskM own i e t d m) ∨ (p.host = i ∧ RespM t m)) := by
      rcases inv.fly p hp with ⟨h0, m, h1, h2⟩ | ⟨h0, m, h1, h2⟩
      · exact ⟨m, h1, Or.inl ⟨h0, h2⟩⟩
      · exact ⟨m, h1, Or.inr ⟨h0, h2⟩⟩
    have hx : n.received p s (l₁ ++ l₂) =
        { n with flying := l₁ ++ l₂, busy := n.busy ++ [⟨p.host, p.srv, m, s.observers⟩] } := by
      unfold Net.received; rw [hm]
    rw [hx]
    simp only [List.map_nil, List.append_nil]
    refine ⟨fun p' hp' => inv.fly p' (mem_of_split hf hp'), ?_, inv.keys, inv.only, ?_, inv.sound⟩
    · intro q hq
      rcases List.mem_append.mp hq with hq | hq
      · exact inv.busy q hq
      · rw [List.mem_singleton.mp hq]; exact hmc
    · rcases inv.state with h1 | ⟨h1, h2, h3, h4⟩
      · exact Or.inl h1
      · refine Or.inr ⟨h1, h2, ?_, ?_⟩
        · intro q hq hqi
          rcases List.mem_append.mp hq with hq | hq
          · exact h3 q hq hqi
          · rw [List.mem_singleton.mp hq] at hqi ⊢
            simp only [] at hqi ⊢
            refine env.asker.calls s ?_
            rw [← h2, ← hqi]; exact List.mem_of_getElem? hs
        · rcases h4 with ⟨h50, h5, h6, h7⟩ | h7
          · refine Or.inl ⟨h50, h5, ?_, ?_⟩
            · intro q hq hqi
              rcases List.mem_append.mp hq with hq | hq
              · exact h6 q hq hqi
              · rw [List.mem_singleton.mp hq] at hqi ⊢
                simp only [] at hqi ⊢
                refine env.asked.calls s ?_
                rw [← h5, ← hqi]; exact List.mem_of_getElem? hs
            · rcases h7 with ⟨p', g1, g2, g3⟩ | ⟨q, g1, g2⟩
              · rcases mem_split_cases hf g1 with rfl | g1
                · exact Or.inr ⟨_, List.mem_append.mpr (Or.inr (List.mem_singleton.mpr rfl)), g2⟩
                · exact Or.inl ⟨p', g1, g2, g3⟩
              · exact Or.inr ⟨q, List.mem_append.mpr (Or.inl g1), g2⟩
          · refine Or.inr ?_
            rcases h7 with ⟨p', g1, g2, g3⟩ | ⟨q, g1, g2⟩
            · rcases mem_split_cases hf g1 with rfl | g1
              · exact Or.inr ⟨_, List.mem_append.mpr (Or.inr (List.mem_singleton.mpr rfl)), g2⟩
              · exact Or.inl ⟨p', g1, g2, g3⟩
            · exact Or.inr ⟨q, List.mem_append.mpr (Or.inl g1), g2⟩
  | drop l₁ l₂ p hf hd =>
    simp only [List.map_nil, List.append_nil]
    refine ⟨fun p' hp' => inv.fly p' (mem_of_split hf hp'), inv.busy, inv.keys, inv.only, ?_, inv.sound⟩
    rcases inv.state with h1 | ⟨h1, h2, h3, h4⟩
    · exact Or.inl h1
    · refine Or.inr ⟨h1, h2, h3, ?_⟩
      have keep : ∀ c, ((∃ p ∈ n.flying, p.host = c ∧ Listening n c p.srv) ∨ ∃ q ∈ n.busy, q.host = c) →
          ((∃ p ∈ l₁ ++ l₂, p.host = c ∧ Listening n c p.srv) ∨ ∃ q ∈ n.busy, q.host = c) := by
        rintro c (⟨p', g1, g2, g3⟩ | hq)
        · rcases mem_split_cases hf g1 with rfl | g1
          · rw [g2] at hd; exact absurd g3 hd
          · exact Or.inl ⟨p', g1, g2, g3⟩
        · exact Or.inr hq
      rcases h4 with ⟨h50, h5, h6, h7⟩ | h7
      · exact Or.inl ⟨h50, h5, h6, keep j h7⟩
      · exact Or.inr (keep i h7)
  | done l₁ l₂ q hb ht =>
    simp only [List.map_nil, List.append_nil]
    refine ⟨inv.fly, fun q' hq' => inv.busy q' (mem_of_split hb hq'), inv.keys, inv.only, ?_, inv.sound⟩
    rcases inv.state with h1 | ⟨h1, h2, h3, h4⟩
    · exact Or.inl h1
    · refine Or.inr ⟨h1, h2, fun q' hq' => h3 q' (mem_of_split hb hq'), ?_⟩
      have keep : ∀ c, (∀ q ∈ n.busy, q.host = c → q.todo.head? = some .node) →
          ((∃ p ∈ n.flying, p.host = c ∧ Listening n c p.srv) ∨ ∃ q ∈ n.busy, q.host = c) →
          ((∃ p ∈ n.flying, p.host = c ∧ Listening n c p.srv) ∨ ∃ q ∈ l₁ ++ l₂, q.host = c) := by
        rintro c hc (hp | ⟨q', g1, g2⟩)
        · exact Or.inl hp
        · rcases mem_split_cases hb g1 with rfl | g3
          · have := hc _ g1 g2
            rw [ht] at this; simp at this
          · exact Or.inr ⟨q', g3, g2⟩
      rcases h4 with ⟨h50, h5, h6, h7⟩ | h7
      · exact Or.inl ⟨h50, h5, fun q' hq' => h6 q' (mem_of_split hb hq'), keep j h6 h7⟩
      · exact Or.inr (keep i h3 h7)
  | die l₁ l₂ q o os ev hb ht hpo hu hfree hok hinv =>
    simp only [List.map_nil, List.append_nil]
    have hq : q ∈ n.busy := by rw [hb]; simp
    have hself : (n.setHost q.host ((n.hosts q.host).killThread q.srv)).hosts q.host =
      (n.hosts q.host).killThread q.srv := by simp [Net.setHost]
    have hothers : ∀ c, c ≠ q.host → (n.setHost q.host ((n.hosts q.host).killThread q.srv)).hosts c = n.hosts c := by
      intro c hc; simp [Net.setHost, hc]
    refine ⟨inv.fly, fun q' hq' => inv.busy q' (mem_of_split hb hq'), ?_, inv.only, ?_, ?_⟩
    · by_cases hc : j = q.host
      · show ∀ o ∈ ((n.setHost q.host _).hosts j).node.objects, KeysOk o
        rw [hc, hself]; intro o ho; exact inv.keys o (by rw [hc]; exact ho)
      · show ∀ o ∈ ((n.setHost q.host _).hosts j).node.objects, KeysOk o
        rw [hothers j hc]; exact inv.keys
    · rcases inv.state with ⟨a, h1, h2, hae⟩ | ⟨h1, h2, h3, h4⟩
      · refine Or.inl ⟨a, h1, ?_, hae⟩
        show ((n.setHost q.host _).hosts i).node.post = none
        by_cases hc : i = q.host
        · rw [hc, hself, show ((n.hosts q.host).killThread q.srv).node.post = (n.hosts q.host).node.post from rfl, ← hc]
          exact h2
        · rw [hothers i hc]; exact h2
      · rcases inv.busy q hq with ⟨hqj, hask⟩ | ⟨hqi, hresp⟩
        · have hne : i ≠ q.host := by rw [hqj]; exact hij
          refine Or.inr ⟨h1, (hothers i hne).trans h2, fun q' hq' => h3 q' (mem_of_split hb hq'), ?_⟩
          rcases h4 with ⟨h50, h5, h6, _⟩ | h7
          · exfalso
            have := h6 q hq hqj
            rw [ht] at this
            simp only [List.head?_cons, Option.some.injEq] at this
            subst this
            obtain ⟨h', outs', g1, _⟩ := ask_node (b := b) (db := db) (h := n.hosts q.host) env.esv
              (by rw [hqj, h5]; exact env.objects) (by rw [hqj, h5]; exact env.target) (by rw [hqj, h5]; exact env.asked.sends)
              hask hfree.1 hok
            rw [hinv] at g1; simp at g1
          · right
            rcases h7 with ⟨p, g1, g2, g3⟩ | ⟨q', g1, g2⟩
            · exact Or.inl ⟨p, g1, g2, (listening_congr (hothers i hne)).mpr g3⟩
            · rcases mem_split_cases hb g1 with rfl | g3
              · exact absurd (g2.symm.trans hqj) hij
              · exact Or.inr ⟨q', g3, g2⟩
        · exfalso
          have := h3 q hq hqi
          rw [ht] at this
          simp only [List.head?_cons, Option.some.injEq] at this
          subst this
          obtain ⟨h', outs', g1, _⟩ := resp_node (b := b) (db := db) (h := n.hosts q.host) hresp hfree.1
          rw [hinv] at g1; simp at g1
    · show (if i = q.host ∧ ObserverRef.node = o then true else n.poisoned i .node) = false
      split
      · rename_i hh
        exfalso
        rcases inv.busy q hq with ⟨hqj, _⟩ | ⟨hqi, hresp⟩
        · exact hij (hh.1.trans hqj)
        · rw [← hh.2] at hinv
          obtain ⟨h', outs', g1, _⟩ := resp_node (b := b) (db := db) (h := n.hosts q.host) hresp hfree.1
          rw [hinv] at g1; simp at g1
      · exact inv.sound
  | infected l₁ l₂ q o os hb ht hpo =>
    simp only [List.map_nil, List.append_nil]
    have hq : q ∈ n.busy := by rw [hb]; simp
    have hself : (n.setHost q.host ((n.hosts q.host).killThread q.srv)).hosts q.host =
      (n.hosts q.host).killThread q.srv := by simp [Net.setHost]
    have hothers : ∀ c, c ≠ q.host → (n.setHost q.host ((n.hosts q.host).killThread q.srv)).hosts c = n.hosts c := by
      intro c hc; simp [Net.setHost, hc]
    refine ⟨inv.fly, fun q' hq' => inv.busy q' (mem_of_split hb hq'), ?_, inv.only, ?_, inv.sound⟩
    · by_cases hc : j = q.host
      · show ∀ o ∈ ((n.setHost q.host _).hosts j).node.objects, KeysOk o
        rw [hc, hself]; intro o ho; exact inv.keys o (by rw [hc]; exact ho)
      · show ∀ o ∈ ((n.setHost q.host _).hosts j).node.objects, KeysOk o
        rw [hothers j hc]; exact inv.keys
    · rcases inv.state with ⟨a, h1, h2, hae⟩ | ⟨h1, h2, h3, h4⟩
      · refine Or.inl ⟨a, h1, ?_, hae⟩
        show ((n.setHost q.host _).hosts i).node.post = none
        by_cases hc : i = q.host
        · rw [hc, hself, show ((n.hosts q.host).killThread q.srv).node.post = (n.hosts q.host).node.post from rfl, ← hc]
          exact h2
        · rw [hothers i hc]; exact h2
      · rcases inv.busy q hq with ⟨hqj, hask⟩ | ⟨hqi, hresp⟩
        · have hne : i ≠ q.host := by rw [hqj]; exact hij
          refine Or.inr ⟨h1, (hothers i hne).trans h2, fun q' hq' => h3 q' (mem_of_split hb hq'), ?_⟩
          rcases h4 with ⟨h50, h5, h6, _⟩ | h7
          · exfalso
            have := h6 q hq hqj
            rw [ht] at this
            simp only [List.head?_cons, Option.some.injEq] at this
            subst this
            rw [hqj, h50] at hpo; cases hpo
          · right
            rcases h7 with ⟨p, g1, g2, g3⟩ | ⟨q', g1, g2⟩
            · exact Or.inl ⟨p, g1, g2, (listening_congr (hothers i hne)).mpr g3⟩
            · rcases mem_split_cases hb g1 with rfl | g3
              · exact absurd (g2.symm.trans hqj) hij
              · exact Or.inr ⟨q', g3, g2⟩
        · exfalso
          have := h3 q hq hqi
          rw [ht] at this
          simp only [List.head?_cons, Option.some.injEq] at this
          subst this
          rw [hqi, inv.sound] at hpo; cases hpo
  | skip l₁ l₂ q o os hb ht hpo hm =>
    simp only [List.map_nil, List.append_nil]
    have hq : q ∈ n.busy := by rw [hb]; simp
    have hbusy : ∀ q' ∈ l₁ ++ { q with todo := os } :: l₂, q' ∈ n.busy ∨ q' = { q with todo := os } := by
      intro q' hq'
      rcases List.mem_append.mp hq' with h | h
      · left; rw [hb]; simp [h]
      · rcases List.mem_cons.mp h with h | h
        · exact Or.inr h
        · left; rw [hb]; simp [h]
    refine ⟨inv.fly, ?_, inv.keys, inv.only, ?_, inv.sound⟩
    · intro q' hq'
      rcases hbusy q' hq' with h | rfl
      · exact inv.busy q' h
      · exact inv.busy q hq
    · rcases inv.state with h1 | ⟨h1, h2, h3, h4⟩
      · exact Or.inl h1
      · rcases inv.busy q hq with ⟨hqj, hask⟩ | ⟨hqi, hresp⟩
        · refine Or.inr ⟨h1, h2, ?_, ?_⟩
          · intro q' hq' hqi
            rcases hbusy q' hq' with h | rfl
            · exact h3 q' h hqi
            · exact absurd (hqi.symm.trans hqj) hij
          · rcases h4 with ⟨h50, h5, h6, _⟩ | h7
            · exfalso
              have := h6 q hq hqj
              rw [ht] at this
              simp only [List.head?_cons, Option.some.injEq] at this
              subst this
              rw [hqj, h50] at hpo; cases hpo
            · right
              rcases h7 with h7 | ⟨q', g1, g2⟩
              · exact Or.inl h7
              · rcases mem_split_cases hb g1 with rfl | g3
                · exact absurd (g2.symm.trans hqj) hij
                · refine Or.inr ⟨q', ?_, g2⟩
                  rcases List.mem_append.mp g3 with h | h <;> simp [h]
        · exfalso
          have := h3 q hq hqi
          rw [ht] at this
          simp only [List.head?_cons, Option.some.injEq] at this
          subst this
          rw [hqi, inv.sound] at hpo; cases hpo
  | call l₁ l₂ q o os ev h' outs ps hb ht hpo hu hfree hok hinv hps =>
    have hq : q ∈ n.busy := by rw [hb]; simp
    have hself : (n.setHost q.host h').hosts q.host = h' := by simp [Net.setHost]
    have hothers : ∀ c, c ≠ q.host → (n.setHost q.host h').hosts c = n.hosts c := by
      intro c hc; simp [Net.setHost, hc]
    have hbusy : ∀ q' ∈ l₁ ++ { q with todo := os } :: l₂, q' ∈ n.busy ∨ q' = { q with todo := os } := by
      intro q' hq'
      rcases List.mem_append.mp hq' with h | h
      · left; rw [hb]; simp [h]
      · rcases List.mem_cons.mp h with h | h
        · exact Or.inr h
        · left; rw [hb]; simp [h]
    have hkeepb : ∀ q' ∈ n.busy, q' = q ∨ q' ∈ l₁ ++ { q with todo := os } :: l₂ := by
      intro q' hq'
      rcases mem_split_cases hb hq' with h | h
      · exact Or.inl h
      · right
        rcases List.mem_append.mp h with h | h <;> simp [h]
    have hin : ({ q with todo := os } : Busy) ∈ l₁ ++ { q with todo := os } :: l₂ := by simp
    have hbusy' : ∀ q' ∈ l₁ ++ { q with todo := os } :: l₂,
        (q'.host = j ∧ AskM own i e t d q'.msg) ∨ (q'.host = i ∧ RespM t q'.msg) := by
      intro q' hq'
      rcases hbusy q' hq' with h | rfl
      · exact inv.busy q' h
      · exact inv.busy q hq
    rcases inv.busy q hq with ⟨hqj, hask⟩ | ⟨hqi, hresp⟩
    · -- at the asked host
      have hne : i ≠ q.host := by rw [hqj]; exact hij
      have hgo := ask_invoke env.esv env.tid (by rw [hqj]; exact inv.keys) hask hinv hfit
      have hfly : ∀ p ∈ n.flying ++ ps, (p.host = j ∧ IsPacket (AskM own i e t d) p) ∨ (p.host = i ∧ IsPacket (RespM t) p) := by
        intro p hp
        rcases hr p hp with h | ⟨x, hx, hb1, hb2, hb3⟩
        · exact inv.fly p h
        · obtain ⟨g1, _, g2⟩ := hgo x (mem_txs.mp hx)
          exact Or.inr ⟨hb3 i g1, by unfold IsPacket; rw [hb1]; exact g2 p.src⟩
      refine ⟨hfly, hbusy', ?_, ?_, ?_, inv.sound⟩
      · show ∀ o ∈ ((n.setHost q.host h').hosts j).node.objects, KeysOk o
        rw [← hqj, hself]
        exact invoke_keys (by rw [hqj]; exact inv.keys) hinv
      · intro k x hx
        rcases List.mem_append.mp hx with hx | hx
        · exact inv.only k x hx
        · obtain ⟨h1, h2⟩ := mem_map_host.mp hx
          exact ⟨h1.trans hqj, (hgo x (mem_txs.mp h2)).2.1⟩
      · rw [outsOf_append, outsOf_other hne, List.append_nil]
        rcases inv.state with ⟨a, h1, h2, hae⟩ | ⟨h1, h2, h3, h4⟩
        · exact Or.inl ⟨a, h1, by
            show ((n.setHost q.host h').hosts i).node.post = none
            rw [hothers i hne]; exact h2, hae⟩
        · refine Or.inr ⟨h1, (hothers i hne).trans h2, ?_, ?_⟩
          · intro q' hq' hqi
            rcases hbusy q' hq' with h | rfl
            · exact h3 q' h hqi
            · exact absurd (hqi.symm.trans hqj) hij
          · right
            rcases h4 with ⟨h50, h5, h6, _⟩ | h7
            · have hh := h6 q hq hqj
              rw [ht] at hh
              simp only [List.head?_cons, Option.some.injEq] at hh
              subst hh
              obtain ⟨h'', outs', g1, x, hx⟩ := ask_node (b := b) (db := db) (h := n.hosts q.host) env.esv
                (by rw [hqj, h5]; exact env.objects) (by rw [hqj, h5]; exact env.target)
                (by rw [hqj, h5]; exact env.asked.sends) hask hfree.1 hok
              rw [hinv] at g1
              simp only [Res.ok.injEq, Prod.mk.injEq] at g1
              obtain ⟨rfl, rfl⟩ := g1
              obtain ⟨k', hk'⟩ := env.asker.listens
              obtain ⟨p, g2, g3, _, _, g4⟩ := hps.2 x (mem_txs.mpr hx) i (hgo x hx).1
                ⟨k', (listening_congr h2).mpr hk'⟩
              exact Or.inl ⟨p, by simp [g2], g3, (listening_congr (hothers i hne)).mpr g4⟩
            · rcases h7 with ⟨p, g1, g2, g3⟩ | ⟨q', g1, g2⟩
              · exact Or.inl ⟨p, by simp [g1], g2, (listening_congr (hothers i hne)).mpr g3⟩
              · rcases hkeepb q' g1 with rfl | g3
                · exact absurd (g2.symm.trans hqj) hij
                · exact Or.inr ⟨q', g3, g2⟩
    · -- at the asking host
      have hne : j ≠ q.host := by rw [hqi]; exact hij.symm
      obtain ⟨htx, htr, hpost⟩ := resp_invoke hresp hinv
      have hfly : ∀ p ∈ n.flying ++ ps, (p.host = j ∧ IsPacket (AskM own i e t d) p) ∨ (p.host = i ∧ IsPacket (RespM t) p) := by
        intro p hp
        rcases hr p hp with h | ⟨x, hx, _⟩
        · exact inv.fly p h
        · have := mem_txs.mp hx
          rw [htx] at this; simp at this
      refine ⟨hfly, hbusy', ?_, ?_, ?_, inv.sound⟩
      · show ∀ o ∈ ((n.setHost q.host h').hosts j).node.objects, KeysOk o
        rw [hothers j hne]; exact inv.keys
      · intro k x hx
        rcases List.mem_append.mp hx with hx | hx
        · exact inv.only k x hx
        · have := mem_txs.mp (mem_map_host.mp hx).2
          rw [htx] at this; simp at this
      · rw [outsOf_append, hqi, outsOf_same, deliveries_append]
        left
        show ∃ a, _ ∧ ((n.setHost i h').hosts i).node.post = none ∧ _
        rw [hqi] at hself
        rw [hself]
        rcases inv.state with ⟨a, h1, h2, hae⟩ | ⟨h1, h2, h3, h4⟩
        · obtain ⟨g1, g2⟩ := hpost (by rw [hqi]; exact h2)
          exact ⟨a, by rw [h1, g2]; rfl, g1, hae⟩
        · have hh := h3 q hq hqi
          rw [ht] at hh
          simp only [List.head?_cons, Option.some.injEq] at hh
          subst hh
          obtain ⟨h'', outs', g1, g2⟩ := resp_node (b := b) (db := db) (h := n.hosts q.host) hresp hfree.1
          rw [hinv] at g1
          simp only [Res.ok.injEq, Prod.mk.injEq] at g1
          obtain ⟨rfl, rfl⟩ := g1
          obtain ⟨a, g3, g4, g5⟩ := g2 (by rw [hqi, h2]; exact env.last)
          rw [hqi, h2, env.post] at g3
          exact ⟨a, by rw [h1, g3]; rfl, g4, g5⟩

/-! ## C84 -/

theorem ask_run {b : Build} {db : Database} {own : IpAddr → Option Nat} {i j : Nat} {e : UInt8} {t : UInt16} {d : UInt32}
    {ch : Nat} {n₁ n : Net S} {tr : List (Nat × Out)} (env : AskEnv b own i j e t d ch n₁)
    (h0 : AskInv own i j e t d ch n₁ [] n₁) (h : Prompt b db own n₁ tr n)
    (hfit : ∀ k g u, (k, Out.handed g u) ∈ tr → Fits u) : AskInv own i j e t d ch n₁ tr n := by
  induction h with
  | refl => exact h0
  | step h h' hr ih =>
    refine ask_step env (ih (fun k g u hx => hfit k g u (by simp [hx]))) h' hr ?_
    intro g u hx
    exact hfit _ g u (List.mem_append.mpr (Or.inr (mem_map_host.mpr ⟨rfl, hx⟩)))

theorem observe_keepsTid {b : Build} {ω : HashOrder} {ok : Nat → Bool} {n n' : Node S} {msg : Message} {outs : List Out}
    (hk : ∀ o ∈ n.objects, KeysOk o) (ht : msg.tid ≠ 0) (h : n.observe b ω ok msg = .ok (n', outs)) :
    n'.lastTid = n.lastTid := by
  cases hr : isRequestByte msg.esvByte with
  | false => exact (C25_silence b ω ok n n' msg outs h (Or.inl hr)).2.2.2.2
  | true =>
    cases hf : findObject n.objects msg.deoj with
    | none => exact (C25_silence b ω ok n n' msg outs h (Or.inr (findObject_none_iff.mp hf))).2.2.2.2
    | some dst =>
      obtain ⟨pre, post, h1, h2, h3⟩ := findObject_split hf
      obtain ⟨copy, app, _, _, _, hc⟩ := Node.observe_target ⟨h1, h2, h3⟩ (hk dst (by rw [h1]; simp)) hr h
      rcases hc with ⟨_, hn, _⟩ | ⟨_, dst', _, _, _, hc⟩
      · rw [hn, Node.updateTid_eq, if_neg (by rw [(errorMessage_header msg hr).tid]; exact ht)]
      · rcases hc with ⟨_, hn, _⟩ | ⟨svc, _, hn, _⟩
        · rw [hn]
        · rw [hn, Node.updateTid_eq, if_neg (by rw [(okMessage_header dst' msg svc).tid]; exact ht)]

/-! ## A host that asks itself -/

/-- What an observer does with a copy of the request, seen from the host that asked. -/
theorem self_ask {b : Build} {db : Database} {own : IpAddr → Option Nat} {i : Nat} {e : UInt8} {t : UInt16} {d : UInt32}
    (he : e = 0x61 ∨ e = 0x62) (ht : t ≠ 0) {h h' : Host S} (hk : ∀ o ∈ h.node.objects, KeysOk o ∧ ValidObject b o)
    (htarget : ∃ o ∈ h.node.objects, o.code = d) {m : Message} (hm : AskM own i e t d m) {env : CallEnv} {o : ObserverRef}
    {outs : List Out} (hi : h.invoke b db env m o = .ok (h', outs)) :
    deliveries outs = [] ∧ h'.node.post = h.node.post ∧ h'.node.lastTid = h.node.lastTid ∧
      h'.node.transport = h.node.transport ∧ (∀ o ∈ h'.node.objects, KeysOk o ∧ ValidObject b o) ∧
      ∃ o ∈ h'.node.objects, o.code = d := by
  cases o with
  | controller =>
    simp only [Host.invoke] at hi
    obtain ⟨r, _, hi⟩ := Res.bind_eq_ok.mp hi
    simp only [Res.pure_eq, Res.ok.injEq, Prod.mk.injEq] at hi
    rw [← hi.1, ← hi.2]; exact ⟨rfl, rfl, rfl, rfl, hk, htarget⟩
  | device =>
    simp only [Host.invoke, Res.ok.injEq, Prod.mk.injEq] at hi
    rw [← hi.1, ← hi.2]; exact ⟨rfl, rfl, rfl, rfl, hk, htarget⟩
  | user k =>
    simp only [Host.invoke, Res.ok.injEq, Prod.mk.injEq] at hi
    rw [← hi.1, ← hi.2]; exact ⟨rfl, rfl, rfl, rfl, hk, htarget⟩
  | node =>
    simp only [Host.invoke] at hi
    obtain ⟨r, hr, hi⟩ := Res.bind_eq_ok.mp hi
    simp only [Res.pure_eq, Res.ok.injEq, Prod.mk.injEq] at hi
    obtain ⟨rfl, rfl⟩ := hi
    unfold Node.observeTry at hr
    split at hr
    · simp only [Res.ok.injEq] at hr; rw [← hr]; exact ⟨rfl, rfl, rfl, rfl, hk, htarget⟩
    · have hr' : h.node.observe b env.ω env.ok m = .ok (r.1, r.2) := hr
      obtain ⟨m1, m2, m3, m4, m5⟩ := hm
      have hreq : isRequestByte m.esvByte = true := by rw [m1]; rcases he with rfl | rfl <;> decide
      have hp := observe_post hr'
      rw [if_neg (by rw [hreq]; intro h; cases h.1)] at hp
      have hkeys : ∀ o ∈ h.node.objects, KeysOk o := fun o ho => (hk o ho).1
      obtain ⟨hal, hk'⟩ := observe_alike hkeys hr'
      refine ⟨hp.2, hp.1, observe_keepsTid hkeys (by rw [m2]; exact ht) hr', (observe_frame hr').2.1,
        fun o ho => ⟨hk' o ho, observe_valid (fun o ho => (hk o ho).2) hr' o ho⟩, ?_⟩
      obtain ⟨o, ho, hoc⟩ := htarget
      cases hf : findObject h.node.objects d with
      | none => exact absurd hoc (findObject_none_iff.mp hf o ho)
      | some o' =>
        obtain ⟨o'', h1, _⟩ := hal.find hf
        obtain ⟨pre, post, h2, _, h3⟩ := findObject_split h1
        exact ⟨o'', by rw [h2]; simp, h3⟩

/-- Where the request and its answers are, if host `i` has asked itself. -/
structure SelfInv (b : Build) (own : IpAddr → Option Nat) (i : Nat) (e : UInt8) (t : UInt16) (d : UInt32) (ch : Nat)
    (n₁ : Net S) (tr : List (Nat × Out)) (n : Net S) : Prop where
  fly : ∀ p ∈ n.flying, p.host = i ∧ (IsPacket (AskM own i e t d) p ∨ IsPacket (RespM t) p)
  busy : ∀ q ∈ n.busy, q.host = i ∧ (AskM own i e t d q.msg ∨ RespM t q.msg)
  only : ∀ k x, (k, Out.tx x) ∈ tr → k = i ∧ ∃ v, x.bytes[10]? = some v ∧ isAnswerByte v = true
  objects : ∀ o ∈ (n.hosts i).node.objects, KeysOk o ∧ ValidObject b o
  target : ∃ o ∈ (n.hosts i).node.objects, o.code = d
  state : (∃ a, deliveries (outsOf i tr) = [(ch, a)] ∧ (n.hosts i).node.post = none ∧ isAnswerByte a.esvByte = true) ∨
    (deliveries (outsOf i tr) = [] ∧ (n.hosts i).node.post = some ch ∧ (n.hosts i).node.lastTid = t ∧
      (n.hosts i).node.transport = (n₁.hosts i).node.transport ∧ (∀ o, n.poisoned i o = false) ∧
      (∀ q ∈ n.busy, RespM t q.msg → q.todo.head? = some .node) ∧
      ((∃ p ∈ n.flying, Listening n i p.srv) ∨ ∃ q ∈ n.busy, q.todo.head? = some .node))

theorem resp_keeps {b : Build} {db : Database} {t : UInt16} {h h' : Host S} {m : Message} (hm : RespM t m) {env : CallEnv}
    {o : ObserverRef} {outs : List Out} (hi : h.invoke b db env m o = .ok (h', outs)) : h'.node.objects = h.node.objects := by
  cases o with
  | controller =>
    simp only [Host.invoke] at hi
    obtain ⟨r, _, hi⟩ := Res.bind_eq_ok.mp hi
    simp only [Res.pure_eq, Res.ok.injEq, Prod.mk.injEq] at hi
    rw [← hi.1]
  | device => simp only [Host.invoke, Res.ok.injEq, Prod.mk.injEq] at hi; rw [← hi.1]
  | user k => simp only [Host.invoke, Res.ok.injEq, Prod.mk.injEq] at hi; rw [← hi.1]
  | node =>
    simp only [Host.invoke] at hi
    obtain ⟨r, hr, hi⟩ := Res.bind_eq_ok.mp hi
    simp only [Res.pure_eq, Res.ok.injEq, Prod.mk.injEq] at hi
    obtain ⟨rfl, rfl⟩ := hi
    unfold Node.observeTry at hr
    split at hr
    · simp only [Res.ok.injEq] at hr; rw [← hr]
    · have hr' : h.node.observe b env.ω env.ok m = .ok (r.1, r.2) := hr
      rcases (Node.observe_nonrequest hm.2.1 hr').1 with h1 | h1 <;> rw [h1]

theorem ask_not_resp {own : IpAddr → Option Nat} {i : Nat} {e : UInt8} {t : UInt16} {d : UInt32} (he : e = 0x61 ∨ e = 0x62)
    {m : Message} (h : AskM own i e t d m) : ¬ RespM t m := by
  intro h'
  have := h'.2.1
  rw [h.1] at this
  rcases he with rfl | rfl <;> exact absurd this (by decide)

theorem listening_transport {n n' : Net S} {i k : Nat} (h : (n'.hosts i).node.transport = (n.hosts i).node.transport) :
    Listening n' i k ↔ Listening n i k := by
  unfold Listening Host.threads; rw [h]

theorem self_step {b : Build} {db : Database} {own : IpAddr → Option Nat} {i : Nat} {e : UInt8} {t : UInt16} {d : UInt32}
    {ch : Nat} {n₁ n n' : Net S} {tr : List (Nat × Out)} {k : Nat} {outs : List Out} (he : e = 0x61 ∨ e = 0x62) (ht0 : t ≠ 0)
    (hcalls : ∀ s ∈ (n₁.hosts i).threads, s.observers.head? = some .node) (hsends : (n₁.hosts i).node.transport.ucast ≠ [])
    (hlisten : ∃ k, Listening n₁ i k)
    (inv : SelfInv b own i e t d ch n₁ tr n) (h : Reliable b db own n k outs n') (hr : Routed own n outs n')
    (hfit : ∀ g u, Out.handed g u ∈ outs → Fits u) :
    SelfInv b own i e t d ch n₁ (tr ++ outs.map (fun o => (k, o))) n' := by
  cases h with
  | receive l₁ l₂ p s hf hs hrun hidle =>
    have hp : p ∈ n.flying := by rw [hf]; simp
    obtain ⟨hpi, hpk⟩ := inv.fly p hp
    obtain ⟨m, hm, hmc⟩ : ∃ m, recvLoop [.datagram p.bytes p.src] = ([m], .running) ∧ (AskM own i e t d m ∨ RespM t m) := by
      rcases hpk with ⟨m, h1, h2⟩ | ⟨m, h1, h2⟩
      · exact ⟨m, h1, Or.inl h2⟩
      · exact ⟨m, h1, Or.inr h2⟩
    have hx : n.received p s (l₁ ++ l₂) =
        { n with flying := l₁ ++ l₂, busy := n.busy ++ [⟨p.host, p.srv, m, s.observers⟩] } := by
      unfold Net.received; rw [hm]
    rw [hx]
    simp only [List.map_nil, List.append_nil]
    refine ⟨fun p' hp' => inv.fly p' (mem_of_split hf hp'), ?_, inv.only, inv.objects, inv.target, ?_⟩
    · intro q hq
      rcases List.mem_append.mp hq with hq | hq
      · exact inv.busy q hq
      · rw [List.mem_singleton.mp hq]; exact ⟨hpi, hmc⟩
    · rcases inv.state with h1 | ⟨h1, h2, h3, h4, h5, h6, h7⟩
      · exact Or.inl h1
      · have hhead : s.observers.head? = some .node := by
          refine hcalls s ?_
          have := List.mem_of_getElem? hs
          rw [hpi] at this
          unfold Host.threads at this ⊢
          rw [← h4]; exact this
        refine Or.inr ⟨h1, h2, h3, h4, h5, ?_, Or.inr ⟨_, List.mem_append.mpr (Or.inr (List.mem_singleton.mpr rfl)), hhead⟩⟩
        intro q hq hqr
        rcases List.mem_append.mp hq with hq | hq
        · exact h6 q hq hqr
        · rw [List.mem_singleton.mp hq]; exact hhead
  | drop l₁ l₂ p hf hd =>
    simp only [List.map_nil, List.append_nil]
    have hp : p ∈ n.flying := by rw [hf]; simp
    refine ⟨fun p' hp' => inv.fly p' (mem_of_split hf hp'), inv.busy, inv.only, inv.objects, inv.target, ?_⟩
    rcases inv.state with h1 | ⟨h1, h2, h3, h4, h5, h6, h7⟩
    · exact Or.inl h1
    · refine Or.inr ⟨h1, h2, h3, h4, h5, h6, ?_⟩
      rcases h7 with ⟨p', g1, g2⟩ | h7
      · rcases mem_split_cases hf g1 with rfl | g1
        · rw [(inv.fly _ hp).1] at hd; exact absurd g2 hd
        · exact Or.inl ⟨p', g1, g2⟩
      · exact Or.inr h7
  | done l₁ l₂ q hb ht =>
    simp only [List.map_nil, List.append_nil]
    refine ⟨inv.fly, fun q' hq' => inv.busy q' (mem_of_split hb hq'), inv.only, inv.objects, inv.target, ?_⟩
    rcases inv.state with h1 | ⟨h1, h2, h3, h4, h5, h6, h7⟩
    · exact Or.inl h1
    · refine Or.inr ⟨h1, h2, h3, h4, h5, fun q' hq' => h6 q' (mem_of_split hb hq'), ?_⟩
      rcases h7 with h7 | ⟨q', g1, g2⟩
      · exact Or.inl h7
      · rcases mem_split_cases hb g1 with rfl | g1
        · rw [ht] at g2; simp at g2
        · exact Or.inr ⟨q', g1, g2⟩
  | die l₁ l₂ q o os ev hb ht hpo hu hfree hok hinv =>
    simp only [List.map_nil, List.append_nil]
    have hq : q ∈ n.busy := by rw [hb]; simp
    obtain ⟨hqi, hqm⟩ := inv.busy q hq
    have hkill : ((n.setHost q.host ((n.hosts q.host).killThread q.srv)).hosts i) = (n.hosts i).killThread q.srv := by
      rw [hqi]; simp [Net.setHost]
    refine ⟨inv.fly, fun q' hq' => inv.busy q' (mem_of_split hb hq'), inv.only, ?_, ?_, ?_⟩
    · show ∀ o ∈ ((n.setHost q.host _).hosts i).node.objects, _
      rw [hkill]; exact inv.objects
    · show ∃ o ∈ ((n.setHost q.host _).hosts i).node.objects, _
      rw [hkill]; exact inv.target
    · rcases inv.state with ⟨a, h1, h2, h3⟩ | ⟨h1, h2, h3, h4, h5, h6, h7⟩
      · refine Or.inl ⟨a, h1, ?_, h3⟩
        show ((n.setHost q.host _).hosts i).node.post = none
        rw [hkill]; exact h2
      · exfalso
        rcases hqm with hask | hresp
        · cases o with
          | device => simp [Host.invoke] at hinv
          | user _ => simp [Host.invoke] at hinv
          | controller =>
            rw [C58_other_responses_partial b db q.msg _ ev (by
              rw [hask.1]; rcases he with rfl | rfl <;> decide)] at hinv
            simp at hinv
          | node =>
            obtain ⟨h', outs', g1, _⟩ := ask_node (b := b) (db := db) (h := n.hosts q.host) he
              (by rw [hqi]; exact inv.objects) (by rw [hqi]; exact inv.target) (by rw [hqi, h4]; exact hsends)
              hask hfree.1 hok
            rw [hinv] at g1; simp at g1
        · have := h6 q hq hresp
          rw [ht] at this
          simp only [List.head?_cons, Option.some.injEq] at this
          subst this
          obtain ⟨h', outs', g1, _⟩ := resp_node (b := b) (db := db) (h := n.hosts q.host) hresp hfree.1
          rw [hinv] at g1; simp at g1
  | infected l₁ l₂ q o os hb ht hpo =>
    simp only [List.map_nil, List.append_nil]
    have hq : q ∈ n.busy := by rw [hb]; simp
    obtain ⟨hqi, hqm⟩ := inv.busy q hq
    have hkill : ((n.setHost q.host ((n.hosts q.host).killThread q.srv)).hosts i) = (n.hosts i).killThread q.srv := by
      rw [hqi]; simp [Net.setHost]
    refine ⟨inv.fly, fun q' hq' => inv.busy q' (mem_of_split hb hq'), inv.only, ?_, ?_, ?_⟩
    · show ∀ o ∈ ((n.setHost q.host _).hosts i).node.objects, _
      rw [hkill]; exact inv.objects
    · show ∃ o ∈ ((n.setHost q.host _).hosts i).node.objects, _
      rw [hkill]; exact inv.target
    · rcases inv.state with ⟨a, h1, h2, h3⟩ | ⟨h1, h2, h3, h4, h5, h6, h7⟩
      · refine Or.inl ⟨a, h1, ?_, h3⟩
        show ((n.setHost q.host _).hosts i).node.post = none
        rw [hkill]; exact h2
      · rw [hqi, h5] at hpo; cases hpo
  | skip l₁ l₂ q o os hb ht hpo hm =>
    simp only [List.map_nil, List.append_nil]
    have hq : q ∈ n.busy := by rw [hb]; simp
    obtain ⟨hqi, hqm⟩ := inv.busy q hq
    refine ⟨inv.fly, ?_, inv.only, inv.objects, inv.target, ?_⟩
    · intro q' hq'
      rcases List.mem_append.mp hq' with hq' | hq'
      · exact inv.busy q' (by rw [hb]; simp [hq'])
      · rcases List.mem_cons.mp hq' with rfl | hq'
        · exact ⟨hqi, hqm⟩
        · exact inv.busy q' (by rw [hb]; simp [hq'])
    · rcases inv.state with h1 | ⟨h1, h2, h3, h4, h5, h6, h7⟩
      · exact Or.inl h1
      · rw [hqi, h5] at hpo; cases hpo
  | call l₁ l₂ q o os ev h' outs ps hb ht hpo hu hfree hok hinv hps =>
    have hq : q ∈ n.busy := by rw [hb]; simp
    obtain ⟨hqi, hqm⟩ := inv.busy q hq
    have hself : ((n.setHost q.host h').hosts i) = h' := by rw [hqi]; simp [Net.setHost]
    have hbusy : ∀ q' ∈ l₁ ++ { q with todo := os } :: l₂, q'.host = i ∧ (AskM own i e t d q'.msg ∨ RespM t q'.msg) := by
      intro q' hq'
      rcases List.mem_append.mp hq' with hq' | hq'
      · exact inv.busy q' (by rw [hb]; simp [hq'])
      · rcases List.mem_cons.mp hq' with rfl | hq'
        · exact ⟨hqi, hqm⟩
        · exact inv.busy q' (by rw [hb]; simp [hq'])
    have hrest : ∀ q' ∈ l₁ ++ { q with todo := os } :: l₂, q' ∈ n.busy ∨ q' = { q with todo := os } := by
      intro q' hq'
      rcases List.mem_append.mp hq' with hq' | hq'
      · exact Or.inl (by rw [hb]; simp [hq'])
      · rcases List.mem_cons.mp hq' with rfl | hq'
        · exact Or.inr rfl
        · exact Or.inl (by rw [hb]; simp [hq'])
    have houts : deliveries (outsOf i (tr ++ outs.map (fun o => (q.host, o)))) = deliveries (outsOf i tr) ++ deliveries outs := by
      rw [hqi, outsOf_append, outsOf_same, deliveries_append]
    rcases hqm with hask | hresp
    · -- the request
      obtain ⟨s1, s2, s3, s4, s5, s6⟩ := self_ask (h := n.hosts q.host) he ht0 (by rw [hqi]; exact inv.objects)
        (by rw [hqi]; exact inv.target) hask hinv
      rw [hqi] at s2 s3 s4
      have htx := ask_invoke he ht0 (h := n.hosts q.host) (by rw [hqi]; exact fun o ho => (inv.objects o ho).1) hask hinv hfit
      refine ⟨?_, hbusy, ?_, by rw [hself]; exact s5, by rw [hself]; exact s6, ?_⟩
      · intro p hp
        rcases hr p hp with h1 | ⟨x, hx, h1, h2, h3⟩
        · exact inv.fly p h1
        · obtain ⟨g1, _, g3⟩ := htx x (mem_txs.mp hx)
          obtain ⟨a, g4, g5⟩ := g3 p.src
          exact ⟨h3 i g1, Or.inr ⟨a, by rw [h1]; exact g4, g5⟩⟩
      · intro c x hx
        rcases List.mem_append.mp hx with hx | hx
        · exact inv.only c x hx
        · obtain ⟨hc, hx'⟩ := mem_map_host.mp hx
          exact ⟨by rw [hc]; exact hqi, (htx x (mem_txs.mp hx')).2.1⟩
      · rw [houts, s1, List.append_nil]
        rcases inv.state with ⟨a, h1, h2, h3⟩ | ⟨h1, h2, h3, h4, h5, h6, h7⟩
        · exact Or.inl ⟨a, h1, by rw [hself, s2]; exact h2, h3⟩
        · refine Or.inr ⟨h1, by rw [hself, s2]; exact h2, by rw [hself, s3]; exact h3, by rw [hself, s4]; exact h4, h5, ?_, ?_⟩
          · intro q' hq' hq'r
            rcases hrest q' hq' with hq' | rfl
            · exact h6 q' hq' hq'r
            · exact absurd hq'r (ask_not_resp he hask)
          · have hlis : ∀ c, Listening n i c → Listening ({ n.setHost q.host h' with
                flying := n.flying ++ ps, busy := l₁ ++ { q with todo := os } :: l₂ } : Net S) i c := fun c hc =>
              (listening_transport (by rw [hself, s4])).mpr hc
            by_cases ho : o = .node
            · subst ho
              obtain ⟨h'', outs', g1, x, g2⟩ := ask_node (b := b) (db := db) (h := n.hosts q.host) he
                (by rw [hqi]; exact inv.objects) (by rw [hqi]; exact inv.target) (by rw [hqi, h4]; exact hsends)
                hask hfree.1 hok
              rw [hinv] at g1
              simp only [Res.ok.injEq, Prod.mk.injEq] at g1
              obtain ⟨rfl, rfl⟩ := g1
              obtain ⟨g3, _⟩ := htx x g2
              obtain ⟨c, hc⟩ := hlisten
              obtain ⟨p, g4, g5, _, _, g6⟩ := hps.2 x (mem_txs.mpr g2) i g3 ⟨c, (listening_transport h4).mpr hc⟩
              exact Or.inl ⟨p, by simp [g4], hlis _ g6⟩
            · rcases h7 with ⟨p, g1, g2⟩ | ⟨q', g1, g2⟩
              · exact Or.inl ⟨p, by simp [g1], hlis _ g2⟩
              · refine Or.inr ⟨q', ?_, g2⟩
                rw [hb] at g1
                rcases List.mem_append.mp g1 with g1 | g1
                · simp [g1]
                · rcases List.mem_cons.mp g1 with rfl | g1
                  · rw [ht] at g2
                    simp only [List.head?_cons, Option.some.injEq] at g2
                    exact absurd g2 ho
                  · simp [g1]
    · -- an answer
      obtain ⟨s1, s2, s3⟩ := resp_invoke hresp hinv
      have hnode := resp_keeps hresp hinv
      have hnotx : ∀ x, Out.tx x ∉ outs := by
        intro x hx
        have := mem_txs.mp hx
        rw [s1] at this; simp at this
      refine ⟨?_, hbusy, ?_, by rw [hself, hnode, hqi]; exact inv.objects, by rw [hself, hnode, hqi]; exact inv.target, ?_⟩
      · intro p hp
        rcases hr p hp with h1 | ⟨x, hx, _⟩
        · exact inv.fly p h1
        · exact absurd hx (hnotx x)
      · intro c x hx
        rcases List.mem_append.mp hx with hx | hx
        · exact inv.only c x hx
        · exact absurd (mem_map_host.mp hx).2 (hnotx x)
      · rw [houts, hself]
        left
        rcases inv.state with ⟨a, h1, h2, h3⟩ | ⟨h1, h2, h3, h4, h5, h6, h7⟩
        · obtain ⟨g1, g2⟩ := s3 (by rw [hqi]; exact h2)
          exact ⟨a, by rw [h1, g2]; rfl, g1, h3⟩
        · have hh := h6 q hq hresp
          rw [ht] at hh
          simp only [List.head?_cons, Option.some.injEq] at hh
          subst hh
          obtain ⟨h'', outs', g1, g2⟩ := resp_node (b := b) (db := db) (h := n.hosts q.host) hresp hfree.1
          rw [hinv] at g1
          simp only [Res.ok.injEq, Prod.mk.injEq] at g1
          obtain ⟨rfl, rfl⟩ := g1
          obtain ⟨a, g3, g4, g5⟩ := g2 (by rw [hqi]; exact h3)
          rw [hqi, h2] at g3
          exact ⟨a, by rw [h1, g3]; rfl, g4, g5⟩

theorem self_run {b : Build} {db : Database} {own : IpAddr → Option Nat} {i : Nat} {e : UInt8} {t : UInt16} {d : UInt32}
    {ch : Nat} {n₁ n : Net S} {tr : List (Nat × Out)} (he : e = 0x61 ∨ e = 0x62) (ht0 : t ≠ 0)
    (hcalls : ∀ s ∈ (n₁.hosts i).threads, s.observers.head? = some .node) (hsends : (n₁.hosts i).node.transport.ucast ≠ [])
    (hlisten : ∃ k, Listening n₁ i k)
    (h0 : SelfInv b own i e t d ch n₁ [] n₁) (h : Prompt b db own n₁ tr n)
    (hfit : ∀ k g u, (k, Out.handed g u) ∈ tr → Fits u) : SelfInv b own i e t d ch n₁ tr n := by
  induction h with
  | refl => exact h0
  | step h h' hr ih =>
    refine self_step he ht0 hcalls hsends hlisten (ih (fun k g u hx => hfit k g u (by simp [hx]))) h' hr ?_
    intro g u hx
    exact hfit _ g u (List.mem_append.mpr (Or.inr (mem_map_host.mpr ⟨rfl, hx⟩)))

theorem post_outs {ok : Nat → Bool} (hok : ∀ k, ok k = true) {n : Node S} (hu : n.transport.ucast ≠ []) (to : SocketAddr)
    {m : Message} (hm : m.tid = 0) :
    ∃ s ∈ n.transport.ucast, (n.postMessage ok to m).2.2.2 =
        [.handed m (m.setTid (n.lastTid + 1)), .tx ⟨s.ifaddr, to, (m.setTid (n.lastTid + 1)).bytes⟩] ∧
      (n.postMessage ok to m).2.2.1 = { n with lastTid := n.lastTid + 1, post := some n.nextChan, nextChan := n.nextChan + 1 } := by
  have hupd : n.updateTid m = (m.setTid (n.lastTid + 1), { n with lastTid := n.lastTid + 1 }) := by
    rw [Node.updateTid_eq, if_pos hm]
  obtain ⟨s, hs, h⟩ := send_works hok hu to (m.setTid (n.lastTid + 1))
  refine ⟨s, hs, ?_, ?_⟩
  · simp only [Node.postMessage, hupd, h, List.map_cons, List.map_nil]
  · simp only [Node.postMessage, hupd]

/-- The state after the request was posted. -/
theorem asks_start {b : Build} {db : Database} {own : IpAddr → Option Nat} {n₀ n₁ : Net S} {i j : Nat} {m : Message}
    {outs : List Out} (h : AsksFor b db own n₀ i j m outs n₁) :
    ∃ op to s, Posts op to.ip m ∧ own to.ip = some j ∧ Net.Api b db n₀ i op outs n₁ ∧ s ∈ (n₀.hosts i).node.transport.ucast ∧
      (∃ g, outs = [.handed g (m.setTid ((n₀.hosts i).node.lastTid + 1)),
        .tx ⟨s.ifaddr, to, (m.setTid ((n₀.hosts i).node.lastTid + 1)).bytes⟩]) ∧
      (n₁.hosts i).node = { (n₀.hosts i).node with
        lastTid := (n₀.hosts i).node.lastTid + 1, post := some (n₀.hosts i).node.nextChan,
        nextChan := (n₀.hosts i).node.nextChan + 1 } ∧
      (∀ k, k ≠ i → n₁.hosts k = n₀.hosts k) ∧ n₁.busy = [] := by
  obtain ⟨op, to, hp, ho, ha⟩ := h.call
  cases hp with
  | node to m ok hok =>
    obtain ⟨s, hs, h1, h2⟩ := post_outs hok h.asker.sends to h.noTid
    have ha' := ha
    cases ha with
    | mk h' _ ps hapi hstep hps =>
      simp only [Host.step, Node.step, h1, h2, Res.bind_ok, Res.pure_eq, Res.ok.injEq, Prod.mk.injEq] at hstep
      obtain ⟨rfl, rfl⟩ := hstep
      refine ⟨_, to, s, .node to m ok hok, ho, ha', hs, ⟨m, rfl⟩, ?_, ?_, h.rest.busy⟩
      · simp [Net.setHost]
      · intro k hk; simp [Net.setHost, hk]
  | controller r m ok hok =>
    obtain ⟨s, hs, h1, h2⟩ := post_outs hok h.asker.sends ⟨r.addr.ip, port⟩ h.noTid
    have ha' := ha
    cases ha with
    | mk h' _ ps hapi hstep hps =>
      simp only [Host.step, Host.postMessage, Res.ok.injEq, Prod.mk.injEq] at hstep
      rw [show nodeProfileCode = profileCode from rfl] at hstep
      obtain ⟨rfl, h4⟩ := hstep
      rw [h1] at h4
      subst h4
      refine ⟨_, ⟨r.addr.ip, port⟩, s, .controller r m ok hok, ho, ha', hs, ⟨m.setSeoj profileCode, rfl⟩, ?_, ?_,
        h.rest.busy⟩
      · simp only [Net.setHost, if_true]
        rw [h2]
      · intro k hk; simp [Net.setHost, hk]

theorem running_congr {n n' : Net S} {i : Nat} (h : (n'.hosts i).node.transport = (n.hosts i).node.transport)
    (hpo : n'.poisoned = n.poisoned) (hr : Running n i) : Running n' i := by
  have ht : (n'.hosts i).threads = (n.hosts i).threads := by unfold Host.threads; rw [h]
  refine ⟨?_, by rw [h]; exact hr.sends, by rw [ht]; exact hr.calls, by rw [hpo]; exact hr.sound⟩
  obtain ⟨k, s, h1, h2⟩ := hr.listens
  exact ⟨k, s, by rw [ht]; exact h1, h2⟩

theorem asks_inv {b : Build} {db : Database} {own : IpAddr → Option Nat} {n₀ n₁ : Net S} {i j : Nat} {m : Message}
    {outs : List Out} (h : AsksFor b db own n₀ i j m outs n₁) (hij : i ≠ j) (hfit : ∀ g u, Out.handed g u ∈ outs → Fits u) :
    AskEnv b own i j m.esvByte ((n₀.hosts i).node.lastTid + 1) m.deoj (n₀.hosts i).node.nextChan n₁ ∧
    AskInv own i j m.esvByte ((n₀.hosts i).node.lastTid + 1) m.deoj (n₀.hosts i).node.nextChan n₁ [] n₁ := by
  obtain ⟨op, to, s, hp, hto, ha, hs, ⟨g, ho⟩, hn, hoth, hb⟩ := asks_start h
  have hj : n₁.hosts j = n₀.hosts j := hoth j hij.symm
  have htid : (n₀.hosts i).node.lastTid + 1 ≠ 0 := by
    intro h0
    apply h.noWrap
    have h1 := congrArg UInt16.toNat h0
    have h2 := UInt16.toNat_lt (n₀.hosts i).node.lastTid
    rw [UInt16.toNat_add] at h1
    apply UInt16.toNat.inj
    show _ = 65535
    simp at h1
    omega
  generalize hu : m.setTid ((n₀.hosts i).node.lastTid + 1) = u at ho
  have u1 : u.esvByte = m.esvByte := by rw [← hu]; rfl
  have u2 : u.deoj = m.deoj := by rw [← hu]; rfl
  have u3 : u.tid = (n₀.hosts i).node.lastTid + 1 := by rw [← hu]; exact setTid_tid _ _
  have u4 : u.isFormat1 = true := by rw [← hu]; exact h.format
  have h5 : u.esvByte ≠ 0x5E := by rw [u1]; rcases h.service with h | h <;> rw [h] <;> decide
  have hfu : Fits u := hfit g u (by rw [ho]; simp)
  have hown : own s.ifaddr = some i := h.rest.own i s (by unfold Host.threads; simp [hs])
  have hfly : ∀ p ∈ n₁.flying, p.host = j ∧
      IsPacket (AskM own i m.esvByte ((n₀.hosts i).node.lastTid + 1) m.deoj) p := by
    intro p hp
    rcases h.routed p hp with h1 | ⟨x, hx, h1, h2, h3⟩
    · rw [h.rest.flying] at h1; simp at h1
    · rw [ho] at hx
      simp only [List.mem_cons, reduceCtorEq, Out.tx.injEq, List.not_mem_nil, or_false, false_or] at hx
      subst hx
      refine ⟨h3 j hto, ?_⟩
      obtain ⟨a, g1, g2, g3, g4, g5⟩ := fits_received u4 h5 hfu p.src
      refine ⟨a, by rw [h1]; exact g1, by rw [g3, u1], by rw [g5, u3], by rw [g4, u2], ?_, ⟨_, _, g1⟩⟩
      rw [g2, h2]; exact hown
  have hpo : n₁.poisoned = n₀.poisoned := by cases ha; rfl
  refine ⟨⟨hij, h.service, htid, running_congr (by rw [hn]) hpo h.asker, running_congr (by rw [hj]) hpo h.asked,
    by rw [hj]; exact h.objects, by rw [hj]; exact h.target, by rw [hn], by rw [hn]⟩, ?_⟩
  refine ⟨fun p hp => Or.inl (hfly p hp), by rw [hb]; simp, by rw [hj]; exact fun o ho => (h.objects o ho).1, by simp, ?_,
    by rw [hpo]; exact h.asker.sound _⟩
  refine Or.inr ⟨rfl, rfl, by rw [hb]; simp, Or.inl ⟨by rw [hpo]; exact h.asked.sound _, rfl, by rw [hb]; simp, Or.inl ?_⟩⟩
  obtain ⟨k, hk⟩ := h.asked.listens
  obtain ⟨p, g1, g2, _, _, g3⟩ := h.delivered.2 ⟨s.ifaddr, to, u.bytes⟩ (by rw [ho]; simp) j hto ⟨k, hk⟩
  exact ⟨p, g1, g2, (listening_congr hj).mpr g3⟩

theorem asks_self {b : Build} {db : Database} {own : IpAddr → Option Nat} {n₀ n₁ : Net S} {i : Nat} {m : Message}
    {outs : List Out} (h : AsksFor b db own n₀ i i m outs n₁) (hfit : ∀ g u, Out.handed g u ∈ outs → Fits u) :
    (n₀.hosts i).node.lastTid + 1 ≠ 0 ∧ Running n₁ i ∧
    SelfInv b own i m.esvByte ((n₀.hosts i).node.lastTid + 1) m.deoj (n₀.hosts i).node.nextChan n₁ [] n₁ := by
  obtain ⟨op, to, s, hp, hto, ha, hs, ⟨g, ho⟩, hn, hoth, hb⟩ := asks_start h
  have htid : (n₀.hosts i).node.lastTid + 1 ≠ 0 := by
    intro h0
    apply h.noWrap
    have h1 := congrArg UInt16.toNat h0
    have h2 := UInt16.toNat_lt (n₀.hosts i).node.lastTid
    rw [UInt16.toNat_add] at h1
    apply UInt16.toNat.inj
    show _ = 65535
    simp at h1
    omega
  generalize hu : m.setTid ((n₀.hosts i).node.lastTid + 1) = u at ho
  have u1 : u.esvByte = m.esvByte := by rw [← hu]; rfl
  have u2 : u.deoj = m.deoj := by rw [← hu]; rfl
  have u3 : u.tid = (n₀.hosts i).node.lastTid + 1 := by rw [← hu]; exact setTid_tid _ _
  have u4 : u.isFormat1 = true := by rw [← hu]; exact h.format
  have h5 : u.esvByte ≠ 0x5E := by rw [u1]; rcases h.service with h | h <;> rw [h] <;> decide
  have hfu : Fits u := hfit g u (by rw [ho]; simp)
  have hown : own s.ifaddr = some i := h.rest.own i s (by unfold Host.threads; simp [hs])
  have hpo : n₁.poisoned = n₀.poisoned := by cases ha; rfl
  have hrun : Running n₁ i := running_congr (by rw [hn]) hpo h.asker
  refine ⟨htid, hrun, ⟨?_, by rw [hb]; simp, by simp, by rw [hn]; exact h.objects, by rw [hn]; exact h.target, Or.inr ?_⟩⟩
  · intro p hp
    rcases h.routed p hp with h1 | ⟨x, hx, h1, h2, h3⟩
    · rw [h.rest.flying] at h1; simp at h1
    · rw [ho] at hx
      simp only [List.mem_cons, reduceCtorEq, Out.tx.injEq, List.not_mem_nil, or_false, false_or] at hx
      subst hx
      refine ⟨h3 i hto, Or.inl ?_⟩
      obtain ⟨a, g1, g2, g3, g4, g5⟩ := fits_received u4 h5 hfu p.src
      refine ⟨a, by rw [h1]; exact g1, by rw [g3, u1], by rw [g5, u3], by rw [g4, u2], ?_, ⟨_, _, g1⟩⟩
      rw [g2, h2]; exact hown
  · refine ⟨rfl, by rw [hn], by rw [hn], rfl, hrun.sound, by rw [hb]; simp, Or.inl ?_⟩
    obtain ⟨k, hk⟩ := h.asked.listens
    obtain ⟨p, g1, _, _, _, g3⟩ := h.delivered.2 ⟨s.ifaddr, to, u.bytes⟩ (by rw [ho]; simp) i hto ⟨k, hk⟩
    exact ⟨p, g1, (listening_transport (by rw [hn])).mpr g3⟩

/-- Once the network is at rest, exactly one answer has been delivered, and only host `j` has put out datagrams, all of them
answers. -/
theorem asks_summary {b : Build} {db : Database} {own : IpAddr → Option Nat} {n₀ n₁ n₂ : Net S} {i j : Nat} {m : Message}
    {outs : List Out} (ha : AsksFor b db own n₀ i j m outs n₁) {tr : List (Nat × Out)} (hrun : Prompt b db own n₁ tr n₂)
    (hfit : ∀ k g u, (k, Out.handed g u) ∈ outs.map (fun o => (i, o)) ++ tr → Fits u)
    (hend : n₂.flying = [] ∧ n₂.busy = []) :
    (∃ a, deliveries (outsOf i tr) = [((n₀.hosts i).node.nextChan, a)] ∧ isAnswerByte a.esvByte = true) ∧
    ∀ k x, (k, Out.tx x) ∈ tr → k = j ∧ ∃ v, x.bytes[10]? = some v ∧ isAnswerByte v = true := by
  have hf0 : ∀ g u, Out.handed g u ∈ outs → Fits u :=
    fun g u h => hfit i g u (List.mem_append_left _ (mem_map_host.mpr ⟨rfl, h⟩))
  have hf1 : ∀ k g u, (k, Out.handed g u) ∈ tr → Fits u := fun k g u h => hfit k g u (List.mem_append_right _ h)
  by_cases hij : i = j
  · subst hij
    obtain ⟨htid, hr, inv0⟩ := asks_self ha hf0
    have inv := self_run ha.service htid hr.calls hr.sends hr.listens inv0 hrun hf1
    refine ⟨?_, inv.only⟩
    rcases inv.state with ⟨a, h1, _, h2⟩ | ⟨_, _, _, _, _, _, h⟩
    · exact ⟨a, h1, h2⟩
    · exfalso
      rw [hend.1, hend.2] at h
      rcases h with h | h <;> simp at h
  · obtain ⟨env, inv0⟩ := asks_inv ha hij hf0
    have inv := ask_run env inv0 hrun hf1
    refine ⟨?_, inv.only⟩
    rcases inv.state with ⟨a, h1, _, h2⟩ | ⟨_, _, _, h⟩
    · exact ⟨a, h1, h2⟩
    · exfalso
      rw [hend.1, hend.2] at h
      rcases h with ⟨_, _, _, h | h⟩ | h | h <;> simp at h

theorem prompt_traced {b : Build} {db : Database} {own : IpAddr → Option Nat} {rule : HostOp S → Prop} {n₀ n₁ n : Net S}
    {tr₀ tr : List (Nat × Out)} (h₀ : Traced b db own rule n₀ tr₀ n₁) (h : Prompt b db own n₁ tr n) :
    Traced b db own rule n₀ (tr₀ ++ tr) n := by
  induction h with
  | refl => simpa using h₀
  | step _ h' hr ih => rw [← List.append_assoc]; exact .internal ih (reliable_internal h') hr

theorem posts_plain {op : HostOp S} {to : IpAddr} {m : Message} (h : Posts op to m) (hm : m.esvByte = 0x61 ∨ m.esvByte = 0x62)
    (own : IpAddr → Option Nat) (i : Nat) : NoAnswers op ∧ Steady op ∧ OwnInterfaces own i op := by
  have key : isAnswerByte m.esvByte = false := by rcases hm with h | h <;> rw [h] <;> decide
  cases h with
  | node to m ok hok => exact ⟨key, trivial, trivial⟩
  | controller r m ok hok => exact ⟨key, trivial, trivial⟩

theorem posts_set {op : HostOp S} {to : IpAddr} {m : Message} (h : Posts op to m) : ∀ i, setBy i op = [] := by
  cases h <;> exact fun _ => rfl

theorem mem_outsOf {i : Nat} {tr : List (Nat × Out)} {o : Out} : o ∈ outsOf i tr ↔ (i, o) ∈ tr := by
  unfold outsOf
  rw [List.mem_map]
  constructor
  · rintro ⟨⟨k, x⟩, hx, rfl⟩
    rw [List.mem_filter] at hx
    simp only [beq_iff_eq] at hx
    rw [← hx.2]; exact hx.1
  · intro h
    exact ⟨(i, o), List.mem_filter.mpr ⟨h, by simp⟩, rfl⟩

/-- C84, the network keeps going: as long as it is not at rest a reliable network can go on without delivering anything to
a wrong host, it cannot do so forever, and from every state it can be brought to rest. -/
theorem C84_progress (b : Build) (db : Database) (own : IpAddr → Option Nat) :
    (∀ n : Net S, (n.flying ≠ [] ∨ n.busy ≠ []) → ∃ i outs n', Reliable b db own n i outs n' ∧ Routed own n outs n') ∧
    (¬ ∃ f : Nat → Net S, ∀ k, ∃ i outs, Reliable b db own (f k) i outs (f (k + 1))) ∧
    (∀ n : Net S, ∃ tr n', Prompt b db own n tr n' ∧ n'.flying = [] ∧ n'.busy = []) := by
  refine ⟨reliable_step_exists b db own, (C75_progress b db own).2.1, ?_⟩
  have key : ∀ (x : Nat × Nat × Nat × Nat) (m n : Net S) (tr : List (Nat × Out)), Prompt b db own m tr n → netMeasure n = x →
      ∃ tr' n', Prompt b db own m tr' n' ∧ n'.flying = [] ∧ n'.busy = [] := by
    intro x
    induction x using lex4.wf.induction with
    | _ x ih =>
      intro m n tr hm hx
      by_cases hn : n.flying ≠ [] ∨ n.busy ≠ []
      · obtain ⟨i, outs, n₁, h1, h2⟩ := reliable_step_exists b db own n hn
        have hd := internal_decreases (reliable_internal h1)
        rw [hx] at hd
        exact ih _ hd m n₁ _ (.step hm h1 h2) rfl
      · refine ⟨tr, n, hm, ?_, ?_⟩
        · exact Classical.not_not.mp (fun h => hn (Or.inl h))
        · exact Classical.not_not.mp (fun h => hn (Or.inr h))
  intro n
  exact key _ n n [] (.refl n) rfl

/-- C84: a read or write request posted to any host, possibly itself, on a network at rest gets its answer: once the network is at rest
again, whatever the handlers do and in whatever order threads run and copies arrive, the channel has received exactly one
message, and that is what host `j` sent to answer the request. (Nobody sends messages too large for a frame or for the
receive buffer, see C05 and C52.) -/
theorem C84_answered (b : Build) (db : Database) (own : IpAddr → Option Nat) (n₀ n₁ n₂ : Net S) (i j : Nat) (m : Message)
    (outs : List Out) (ha : AsksFor b db own n₀ i j m outs n₁) (tr : List (Nat × Out)) (hrun : Prompt b db own n₁ tr n₂)
    (hfit : ∀ k g u, (k, Out.handed g u) ∈ outs.map (fun o => (i, o)) ++ tr → Fits u)
    (hend : n₂.flying = [] ∧ n₂.busy = []) :
    ∃ a t r, deliveries (outsOf i tr) = [((n₀.hosts i).node.nextChan, a)] ∧ (j, Out.tx t) ∈ tr ∧ Out.tx r ∈ outs ∧
      Reads a t.bytes ∧ (frameOf a).Valid ∧ Answers t r ∧
      (successByte m.esvByte = some a.esvByte ∨ a.esvByte = errorByte m.esvByte) := by
  obtain ⟨⟨a, hdel, hae⟩, only⟩ := asks_summary ha hrun hfit hend
  obtain ⟨op, to, s, hp, hto, hapi, hs, ⟨g, ho⟩, _⟩ := asks_start ha
  obtain ⟨hna, hst, hoi⟩ := posts_plain hp ha.service own i
  have htr : Traced b db own NoAnswers n₀ (outs.map (fun o => (i, o)) ++ tr) n₂ := by
    refine prompt_traced ?_ hrun
    have := Traced.api (own := own) (rule := NoAnswers) .init hapi ha.routed hoi hna
    simpa using this
  have hmem : (i, Out.deliver (n₀.hosts i).node.nextChan a) ∈ tr := by
    rw [← mem_outsOf, mem_deliveries, hdel]; simp
  obtain ⟨d₁, d₂, hd⟩ := List.append_of_mem hmem
  have hsplit : outs.map (fun o => (i, o)) ++ tr =
      (outs.map (fun o => (i, o)) ++ d₁) ++ (i, Out.deliver (n₀.hosts i).node.nextChan a) :: d₂ := by
    rw [hd, List.append_assoc]
  obtain ⟨p₁, k, t, p₂, r, hpre, hr, _, _, hreads, hans⟩ :=
    C76_answer_partial b db own n₀ n₂ ha.rest _ _ _ htr i _ a hsplit hae
  have hv : (frameOf a).Valid :=
    ((traced_inv (plain := True) (fun _ _ h => h) ha.rest htr).delivered _ _ _ _ _ hsplit).1
  have hw := hreads
  obtain ⟨rest, hrest⟩ := hw
  obtain ⟨_, _, _, hw⟩ := wire_frame hv hrest
  have hreq : ∀ x, Out.tx x ∈ outs → x.bytes[10]? = some m.esvByte := by
    intro x hx
    rw [ho] at hx
    simp only [List.mem_cons, reduceCtorEq, Out.tx.injEq, List.not_mem_nil, or_false, false_or] at hx
    subst hx
    exact bytes_esv _
  have hsub : ∀ x ∈ p₁ ++ (k, Out.tx t) :: p₂, x ∈ outs.map (fun o => (i, o)) ∨ x ∈ tr := by
    intro x hx
    rw [← hpre] at hx
    rcases List.mem_append.mp hx with hx | hx
    · exact Or.inl hx
    · right; rw [hd]; exact List.mem_append_left _ hx
  have ht : k = j ∧ (k, Out.tx t) ∈ tr := by
    rcases hsub (k, Out.tx t) (by simp) with hx | hx
    · exfalso
      have h1 := hreq t (mem_map_host.mp hx).2
      rw [hw] at h1
      simp only [Option.some.injEq, frameOf] at h1
      rw [h1] at hae
      rcases ha.service with h2 | h2 <;> rw [h2] at hae <;> exact absurd hae (by decide)
    · exact ⟨(only k t hx).1, hx⟩
  have hro : Out.tx r ∈ outs := by
    rcases hsub (i, Out.tx r) (by simp [hr]) with hx | hx
    · exact (mem_map_host.mp hx).2
    · exfalso
      obtain ⟨_, v, h1, h2⟩ := only i r hx
      obtain ⟨v', h3, h4, _⟩ := hans.service
      rw [h1] at h3
      obtain rfl := Option.some.inj h3
      rw [(by decide +kernel : ∀ v : UInt8, isAnswerByte v = true → isRequestByte v = false) v h2] at h4
      cases h4
  refine ⟨a, t, r, hdel, by rw [← ht.1]; exact ht.2, hro, hreads, hv, hans, ?_⟩
  obtain ⟨v, h1, _, h2⟩ := hans.service
  rw [hreq r hro] at h1
  simp only [Option.some.injEq] at h1
  rw [hw, ← h1] at h2
  rcases h2 with h2 | h2
  · exact Or.inl h2.symm
  · right
    simpa [frameOf] using h2

/-! ## What the answer says -/

/-- The two messages ask for the same. -/
def SameAsk (q m : Message) : Prop := q.esvByte = m.esvByte ∧ q.deoj = m.deoj ∧ q.properties = m.properties

theorem same_writes {q m : Message} (h : SameAsk q m) (hm : m.esvByte = 0x61 ∨ m.esvByte = 0x62) :
    writesOf q = writesOf m ∧ readsOf q = readsOf m := by
  obtain ⟨h1, _, h3⟩ := h
  unfold writesOf readsOf
  rw [h1, h3]
  rcases hm with hm | hm <;> rw [hm] <;> simp

theorem same_allowed {q m : Message} (h : SameAsk q m) (hm : m.esvByte = 0x61 ∨ m.esvByte = 0x62) (o : Object)
    (hs : List (Handler S)) : (Allowed o q ∧ Approved hs o q) ↔ (Allowed o m ∧ Approved hs o m) := by
  obtain ⟨h1, h2⟩ := same_writes h hm
  have : q.esv = m.esv := by unfold Message.esv; rw [h.1]
  unfold Allowed Approved
  rw [h1, h2, h.2.2, this]

theorem same_judged {q m : Message} (h : SameAsk q m) (hm : m.esvByte = 0x61 ∨ m.esvByte = 0x62) (o : Object)
    (hs : List (Handler S)) (v : Values) : v.judgedStep hs o q = v.judgedStep hs o m := by
  have h1 := same_allowed h hm o hs
  have h2 : (isRequestByte q.esvByte = true ∧ q.deoj = o.code ∧ Allowed o q ∧ Approved hs o q) ↔
      (isRequestByte m.esvByte = true ∧ m.deoj = o.code ∧ Allowed o m ∧ Approved hs o m) := by
    rw [h.1, h.2.1, h1]
  unfold Values.judgedStep
  rw [(same_writes h hm).1]
  by_cases hx : isRequestByte m.esvByte = true ∧ m.deoj = o.code ∧ Allowed o m ∧ Approved hs o m
  · rw [if_pos hx, if_pos (h2.mpr hx)]
  · rw [if_neg hx, if_neg (fun h => hx (h2.mp h))]

theorem judged_twice (hs : List (Handler S)) (o : Object) (v : Values) (m : Message) :
    (v.judgedStep hs o m).judgedStep hs o m = v.judgedStep hs o m := by
  unfold Values.judgedStep
  split
  · funext c
    unfold Values.write
    cases lastWrite (writesOf m) c with
    | none => rfl
    | some d => cases v c <;> rfl
  · rfl

/-- All accesses are copies of the request or no requests at all. -/
theorem fold_same {m : Message} (hm : m.esvByte = 0x61 ∨ m.esvByte = 0x62) (hs : List (Handler S)) (o : Object) (v : Values)
    (l : List Access) (hl : ∀ a ∈ l, ∃ q, a = .request q ∧ (SameAsk q m ∨ isRequestByte q.esvByte = false)) :
    (l.foldl (Values.access hs o) v = v ∨ l.foldl (Values.access hs o) v = v.judgedStep hs o m) ∧
    l.foldl (Values.access hs o) (v.judgedStep hs o m) = v.judgedStep hs o m := by
  induction l with
  | nil => exact ⟨Or.inl rfl, rfl⟩
  | cons a l ih =>
    obtain ⟨ih1, ih2⟩ := ih (fun a ha => hl a (List.mem_cons_of_mem _ ha))
    obtain ⟨q, rfl, h | h⟩ := hl a List.mem_cons_self
    · simp only [List.foldl_cons, Values.access, same_judged h hm, judged_twice]
      exact ⟨Or.inr ih2, ih2⟩
    · have : ∀ v : Values, v.judgedStep hs o q = v := by
        intro v; unfold Values.judgedStep; simp [h]
      simp only [List.foldl_cons, Values.access, this]
      exact ⟨ih1, ih2⟩

/-- C84, what the answer says: if moreover the handlers of host `j` decide by service, property and definitions and do not
change objects, the one message received through the channel is a success exactly if the object's attributes allow the
request and a handler approves; then a read response shows the values the object had when the request was posted, and a
write response confirms the properties written, which the object then holds, however often the network repeated the
request. (Property maps, 0x9D to 0x9F, are left out, see C18.) -/
theorem C84_values (b : Build) (db : Database) (own : IpAddr → Option Nat) (n₀ n₁ n₂ : Net S) (i j : Nat) (m : Message)
    (outs : List Out) (ha : AsksFor b db own n₀ i j m outs n₁) (tr : List (Nat × Out)) (hrun : Prompt b db own n₁ tr n₂)
    (hfit : ∀ k g u, (k, Out.handed g u) ∈ outs.map (fun o => (i, o)) ++ tr → Fits u)
    (hend : n₂.flying = [] ∧ n₂.busy = []) (hp : ∀ h ∈ (n₀.hosts j).node.handlers, Passive h)
    (hst : ∀ h ∈ (n₀.hosts j).node.handlers, Stateless h) (o : Object)
    (ho : findObject (n₀.hosts j).node.objects m.deoj = some o) :
    ∃ a, deliveries (outsOf i tr) = [((n₀.hosts i).node.nextChan, a)] ∧
      (Allowed o m ∧ Approved (n₀.hosts j).node.handlers o m → successByte m.esvByte = some a.esvByte) ∧
      (¬ (Allowed o m ∧ Approved (n₀.hosts j).node.handlers o m) → a.esvByte = errorByte m.esvByte) ∧
      (a.esvByte = 0x72 → m.esvByte = 0x62 ∧ (valuesOf o).Shown m.properties a.properties) ∧
      (a.esvByte = 0x71 → m.esvByte = 0x61 ∧ a.properties = ackOf m.properties) ∧
      ∀ c, isMapCode c = false →
        (n₂.hosts j).node.property m.deoj c =
          if a.esvByte = 0x71 then (valuesOf o).write m.properties c else valuesOf o c := by
  obtain ⟨a, t, r, hdel, ht, hr, hreads, hv, hans, hae⟩ := C84_answered b db own n₀ n₁ n₂ i j m outs ha tr hrun hfit hend
  have hab := answer_bytes (svc := a.esvByte) ha.service (by rcases hae with h | h; exact Or.inr h; exact Or.inl h)
  have only := (asks_summary ha hrun hfit hend).2
  obtain ⟨op, to, s, hpost, hto, hapi, hs, ⟨g, hout⟩, _⟩ := asks_start ha
  obtain ⟨hna, hsteady, hoi⟩ := posts_plain hpost ha.service own i
  have hset := posts_set hpost
  have htr : Traced b db own Plain n₀ (outs.map (fun o => (i, o)) ++ tr) n₂ := by
    refine prompt_traced ?_ hrun
    have := Traced.api (own := own) (rule := Plain) .init hapi ha.routed hoi ⟨hna, hsteady, hset⟩
    simpa using this
  have hlog := traced_logged (j := j) htr
  generalize hL : (outs.map (fun o => (i, o)) ++ tr).map (fun x => Entry.put x.1 x.2) = log at hlog
  have hmem : ∀ k x, Entry.put k x ∈ log ↔ (k, x) ∈ outs.map (fun o => (i, o)) ++ tr := by
    intro k x
    rw [← hL, List.mem_map]
    constructor
    · rintro ⟨⟨k', x'⟩, h1, h2⟩
      simp only [Entry.put.injEq] at h2
      rw [← h2.1, ← h2.2]; exact h1
    · intro h; exact ⟨_, h, rfl⟩
  have hocode : o.code = m.deoj := by
    obtain ⟨_, _, _, _, h3⟩ := findObject_split ho
    exact h3
  obtain ⟨l, ex, hlast⟩ := C83_linearizable b db own j n₀ n₂ ha.rest (fun o ho => (ha.objects o ho).1) hp hst log hlog
  have hfin := hlast o (by rw [hocode]; exact ho)
  clear hlast
  generalize (n₀.hosts j).node.handlers = hs' at *
  generalize (n₀.hosts j).node.objects = objs at *
  -- all accesses are copies of the request or no requests
  have hone : ∀ x, Out.tx x ∈ outs → x.bytes = (m.setTid ((n₀.hosts i).node.lastTid + 1)).bytes := by
    intro x hx
    rw [hout] at hx
    simp only [List.mem_cons, reduceCtorEq, Out.tx.injEq, List.not_mem_nil, or_false, false_or] at hx
    rw [hx]
  have hfu : Fits (m.setTid ((n₀.hosts i).node.lastTid + 1)) :=
    hfit i g _ (List.mem_append_left _ (mem_map_host.mpr ⟨rfl, by rw [hout]; simp⟩))
  have hacc : ∀ x ∈ l, ∃ q, x.2 = .request q ∧ (SameAsk q m ∨ isRequestByte q.esvByte = false) ∧ (frameOf q).Valid := by
    intro x hx
    obtain ⟨t, ac⟩ := x
    cases ac with
    | set oc c d =>
      exfalso
      have : (t, oc, c, d) ∈ setsIn j log := by
        rw [← ex.sets]; exact List.mem_filterMap.mpr ⟨_, hx, rfl⟩
      have := mem_sets this
      rw [← hL] at this
      obtain ⟨_, _, h⟩ := List.mem_map.mp this
      exact Entry.noConfusion h
    | request q =>
      obtain ⟨k, r, h1, h2, h3, _⟩ := ex.heard t q hx
      refine ⟨q, rfl, ?_, h3⟩
      rcases List.mem_append.mp ((hmem _ _).mp (List.mem_of_mem_take h1)) with h4 | h4
      · left
        have hb := hone r (mem_map_host.mp h4).2
        have hfr := reads_frame h2 h3 hb (frameOf_valid _ hfu.1) ha.format (by
          show m.esvByte ≠ 0x5E
          rcases ha.service with h | h <;> rw [h] <;> decide)
        have he : q.esvByte = m.esvByte := congrArg Frame.esv hfr
        refine ⟨he, ?_, ?_⟩
        · have := congrArg Frame.deoj hfr
          simp only [frameOf] at this
          exact UInt32.toNat_inj.mp this
        · exact (single_props hfr (by rw [he]; rcases ha.service with h | h <;> rw [h] <;> decide)).trans rfl
      · right
        obtain ⟨_, v, h5, h6⟩ := only k r h4
        obtain ⟨rest, hrest⟩ := h2
        obtain ⟨_, _, _, hw⟩ := wire_frame h3 hrest
        rw [hw] at h5
        simp only [Option.some.injEq, frameOf] at h5
        rw [h5]
        exact (by decide +kernel : ∀ v : UInt8, isAnswerByte v = true → isRequestByte v = false) v h6
  obtain ⟨pos, hpos⟩ := List.mem_iff_getElem?.mp ((hmem j (.tx t)).mpr (List.mem_append_right _ ht))
  obtain ⟨v, hv1, hv2⟩ := (only j t ht).2
  obtain ⟨l₁, t', req, l₂, k, r', u, o', g1, g2, g3, g4, g5, _, g6, ⟨g', g7⟩, g8, g9⟩ := ex.answers pos t hpos ⟨v, hv1, hv2⟩
  have hreq : SameAsk req m := by
    obtain ⟨q, hq, h1, h2⟩ := hacc (t', .request req) (by rw [g1]; simp)
    simp only [Access.request.injEq] at hq
    subst hq
    rcases h1 with h1 | h1
    · exact h1
    · exfalso
      obtain ⟨e, h3, h4, _⟩ := g4.service
      obtain ⟨rest, hrest⟩ := g5
      obtain ⟨_, _, _, hw⟩ := wire_frame h2 hrest
      rw [hw] at h3
      simp only [Option.some.injEq, frameOf] at h3
      rw [h3, h4] at h1
      cases h1
  rw [hreq.2.1, ho] at g8
  obtain rfl := Option.some.inj g8
  have hfits : Fits u := hfit j g' u ((hmem _ _).mp g7)
  obtain ⟨e1, _⟩ := reads_header hreads hv g6
  have hfr := reads_frame hreads hv g6 (frameOf_valid _ hfits.1) g9.format (by rw [e1]; exact hab.2.2.1)
  have hnwr : isWriteReadByte a.esvByte = false := by
    rcases ha.service with h | h <;> rw [h] at hae <;> rcases hae with h | h
    · have : a.esvByte = 0x71 := by simpa [successByte] using h.symm
      rw [this]; decide
    · rw [h]; decide
    · have : a.esvByte = 0x72 := by simpa [successByte] using h.symm
      rw [this]; decide
    · rw [h]; decide
  have hprops := single_props hfr hnwr
  have hiff := same_allowed hreq ha.service o hs'
  have hvals : valuesAfter hs' o (l₁.map (fun x => x.2) ++ [.request req]) = (valuesOf o).judgedStep hs' o m ∧
      valuesAfter hs' o (l.map (fun x => x.2)) = (valuesOf o).judgedStep hs' o m := by
    have hall : ∀ q : List (Nat × Access), (∀ x ∈ q, x ∈ l) → ∀ a ∈ q.map (fun x => x.2),
        ∃ q, a = .request q ∧ (SameAsk q m ∨ isRequestByte q.esvByte = false) := by
      intro q hq a ha
      obtain ⟨x, hx, rfl⟩ := List.mem_map.mp ha
      obtain ⟨q, h1, h2, _⟩ := hacc x (hq x hx)
      exact ⟨q, h1, h2⟩
    have h1 := (fold_same ha.service hs' o (valuesOf o) _ (hall l₁ (by intro x hx; rw [g1]; simp [hx]))).1
    have h2 := (fold_same ha.service hs' o (valuesOf o) _ (hall l₂ (by intro x hx; rw [g1]; simp [hx]))).2
    have h3 : valuesAfter hs' o (l₁.map (fun x => x.2) ++ [.request req]) = (valuesOf o).judgedStep hs' o m := by
      rw [valuesAfter_snoc]
      unfold valuesAfter
      simp only [Values.access, same_judged hreq ha.service]
      rcases h1 with h1 | h1 <;> rw [h1]
      exact judged_twice _ _ _ _
    refine ⟨h3, ?_⟩
    rw [g1, List.map_append, List.map_cons]
    rw [show l₁.map (fun x => x.2) ++ Access.request req :: l₂.map (fun x => x.2) =
      (l₁.map (fun x => x.2) ++ [Access.request req]) ++ l₂.map (fun x => x.2) by simp]
    unfold valuesAfter at h3 ⊢
    rw [List.foldl_append, h3, h2]
  rw [hvals.1] at g9
  simp only [hvals.2] at hfin
  have hmreq : isRequestByte m.esvByte = true := by rcases ha.service with h | h <;> rw [h] <;> decide
  have hdone : Allowed o m ∧ Approved hs' o m → successByte m.esvByte = some a.esvByte := by
    intro hx
    have := g9.done (hiff.mpr hx)
    rw [hreq.1, e1] at this; exact this
  have href : ¬ (Allowed o m ∧ Approved hs' o m) → a.esvByte = errorByte m.esvByte := by
    intro hx
    have := g9.refused (fun h => hx (hiff.mp h))
    rw [hreq.1, e1] at this; exact this
  refine ⟨a, hdel, hdone, href, ?_, ?_, ?_⟩
  · intro h72
    have hm : m.esvByte = 0x62 := by
      rcases hae with h | h
      · rw [h72] at h; exact (success_inv _ _ h).2.1 rfl
      · rw [h72] at h; exact absurd h.symm (errorByte_negative _).2.1
    refine ⟨hm, ?_⟩
    have := g9.read (by rw [hreq.1]; exact hm) (by rw [e1]; exact h72)
    rw [hreq.2.2, ← hprops] at this
    have hsame : (valuesOf o).judgedStep hs' o m = valuesOf o := by
      unfold Values.judgedStep
      split
      · have : writesOf m = [] := by unfold writesOf; rw [hm]; simp
        rw [this]; rfl
      · rfl
    rw [hsame] at this
    exact this
  · intro h71
    have hm : m.esvByte = 0x61 := by
      rcases hae with h | h
      · rw [h71] at h; exact (success_inv _ _ h).1 rfl
      · rw [h71] at h; exact absurd h.symm (errorByte_negative _).1
    refine ⟨hm, ?_⟩
    have := g9.wrote (by rw [hreq.1]; exact hm) (by rw [e1]; exact h71)
    rw [hreq.2.2, ← hprops] at this
    exact this
  · intro c hc
    rw [← hocode, hfin c hc]
    unfold Values.judgedStep
    by_cases hx : Allowed o m ∧ Approved hs' o m
    · rw [if_pos ⟨hmreq, hocode.symm, hx⟩]
      have hsu := hdone hx
      rcases ha.service with h | h
      · rw [h] at hsu
        have h71 : a.esvByte = 0x71 := by simpa [successByte] using hsu.symm
        rw [if_pos h71]
        have : writesOf m = m.properties := by unfold writesOf; rw [h]; simp
        rw [this]
      · rw [h] at hsu
        have h72 : a.esvByte = 0x72 := by simpa [successByte] using hsu.symm
        rw [if_neg (by rw [h72]; decide)]
        have : writesOf m = [] := by unfold writesOf; rw [h]; simp
        rw [this]; rfl
    · rw [if_neg (fun h => hx h.2.2)]
      rw [if_neg (by rw [href hx]; exact (errorByte_negative _).1)]

/-! ## An execution -/

/-- A receiver thread takes the first datagram, calls the node and waits for the next datagram. -/
theorem prompt_round {b : Build} {db : Database} {own : IpAddr → Option Nat} {n₁ x : Net S} {tr : List (Nat × Out)}
    (h : Prompt b db own n₁ tr x) {p : Packet} {rest : List Packet} {s : Server} {m : Message} {en : LoopEnd} {n' : Node S}
    {outs : List Out} {ω : HashOrder} (ps : List Packet) (hf : x.flying = p :: rest) (hidle : x.busy = [])
    (hpo : x.poisoned p.host .node = false)
    (hs : (x.hosts p.host).threads[p.srv]? = some s) (hr : s.thread = .running) (ho : s.observers = [.node])
    (hm : recvLoop [.datagram p.bytes p.src] = ([m], en))
    (hobs : (x.hosts p.host).node.observe b ω allOk m = .ok (n', outs))
    (hrt : ∀ p ∈ ps, ∃ t, Out.tx t ∈ outs ∧ p.bytes = t.bytes ∧ p.src.ip = t.iface ∧
      ∀ j, own t.to.ip = some j → p.host = j)
    (hps : ∀ t, Out.tx t ∈ outs → ∀ j, own t.to.ip = some j → ∃ p ∈ ps, p.host = j ∧ p.bytes = t.bytes ∧
      p.src.ip = t.iface ∧ Listening x j p.srv) :
    Prompt b db own n₁ (tr ++ outs.map (fun o => (p.host, o)))
      { x.setHost p.host { x.hosts p.host with node := n' } with flying := rest ++ ps, busy := [] } := by
  have h1 := Reliable.receive (b := b) (db := db) (own := own) (n := x) [] rest p s (by rw [hf]; rfl) hs hr
    (fun q hq => by rw [hidle] at hq; simp at hq)
  have hx : x.received p s ([] ++ rest) = { x with flying := rest, busy := [⟨p.host, p.srv, m, [.node]⟩] } := by
    unfold Net.received; rw [hm]; simp only [ho, hidle, List.nil_append]
  rw [hx] at h1
  have h2 := Reliable.call (b := b) (db := db) (own := own)
    (n := ({ x with flying := rest, busy := [⟨p.host, p.srv, m, [.node]⟩] } : Net S)) [] []
    ⟨p.host, p.srv, m, [.node]⟩ .node [] ⟨true, true, ω, fun _ => List.replicate 16 0, allOk⟩ { x.hosts p.host with node := n' } outs
    ps rfl rfl hpo (fun _ => rfl) ⟨rfl, rfl⟩ (fun _ => rfl) (by
      simp only [Host.invoke, Node.observeTry, Bool.not_true, Bool.false_eq_true, if_false, hobs, Res.bind_ok, Res.pure_eq])
    ⟨by intro p' hp'
        obtain ⟨t, g1, g2, g3, _⟩ := hrt p' hp'
        exact ⟨t, g1, g2, g3⟩,
     by intro t ht j hj _
        obtain ⟨p', g1, g2, g3, g4, g5⟩ := hps t ht j hj
        exact ⟨p', g1, g2, g3, g4, (listening_congr rfl).mpr g5⟩⟩
  have g1 := Prompt.step h h1 (by intro p' hp'; exact Or.inl (by rw [hf]; exact List.mem_cons_of_mem _ hp'))
  have g2 := Prompt.step g1 h2 (by
    intro p' hp'
    rcases List.mem_append.mp hp' with hp' | hp'
    · exact Or.inl hp'
    · exact Or.inr (hrt p' hp'))
  have h3 := Reliable.done (b := b) (db := db) (own := own)
    (n := ({ x.setHost p.host { x.hosts p.host with node := n' } with
      flying := rest ++ ps, busy := [⟨p.host, p.srv, m, []⟩] } : Net S)) [] [] ⟨p.host, p.srv, m, []⟩ rfl rfl
  have g3 := Prompt.step g2 h3 (by intro p' hp'; exact Or.inl hp')
  simpa [Net.setHost] using g3

def exReplied : List UInt8 := [0x10, 0x81, 0, 1, 0x02, 0x90, 0x01, 0, 0, 0, 0x72, 1, 0xB0, 1, 0x30]

/-- The message handed to the transport fits. -/
def fitsOut : Out → Bool
  | .handed _ u => decide (SizesOk u) && decide (u.bytes.length ≤ 1024)
  | _ => true

theorem fits_all {l : List Out} (h : l.all fitsOut = true) {g u : Message} (hu : Out.handed g u ∈ l) : Fits u := by
  have := List.all_eq_true.mp h _ hu
  simpa [fitsOut, Fits] using this

/-- Non-vacuity of the theorems above: host 0 posts a read request to host 1, which answers, and the answer is delivered. -/
example (db : Database) : ∃ (n₀ n₁ n₂ : Net Nat) (outs : List Out) (tr : List (Nat × Out)),
    AsksFor .dev db exOwn n₀ 0 1 exAsk outs n₁ ∧ Prompt .dev db exOwn n₁ tr n₂ ∧
    (∀ k g u, (k, Out.handed g u) ∈ outs.map (fun o => (0, o)) ++ tr → Fits u) ∧ (n₂.flying = [] ∧ n₂.busy = []) ∧
    (∀ h ∈ (n₀.hosts 1).node.handlers, Passive h) ∧ (∀ h ∈ (n₀.hosts 1).node.handlers, Stateless h) ∧
    ∃ o, findObject (n₀.hosts 1).node.objects exAsk.deoj = some o := by
  obtain ⟨o, A, oa, rq, B, ob, rs, A', m', ho, hk, hk2, ha, hoa, hr, hb, hob, hm, hobs, hfit1, hfit2, hcode⟩ :
      ∃ o A oa rq B ob rs A' m', exLight = .ok o ∧ (∀ k : UInt8, ((o.properties k).all (fun p => p.code == k)) = true) ∧
      (∀ k : UInt8, ((o.properties k).all (fun p => decide (0x80 ≤ p.code))) = true) ∧
      exCaller.step .dev (.post ⟨.v4 0xC0A80002, 3610⟩ exAsk allOk) = .ok (A, oa) ∧
      txs oa = [(⟨.v4 0xC0A80001, ⟨.v4 0xC0A80002, 3610⟩, (exAsk.setTid 1).bytes⟩ : Tx)] ∧
      recvLoop [.datagram (exAsk.setTid 1).bytes ⟨.v4 0xC0A80001, 3610⟩] = ([rq], .running) ∧
      (exCounting o).observe .dev .ascending allOk rq = .ok (B, ob) ∧
      txs ob = [(⟨.v4 0xC0A80002, ⟨.v4 0xC0A80001, 3610⟩, exReplied⟩ : Tx)] ∧
      recvLoop [.datagram exReplied ⟨.v4 0xC0A80002, 3610⟩] = ([rs], .running) ∧
      A.observe .dev .ascending allOk rs = .ok (A', [.deliver 0 m']) ∧
      oa.all fitsOut = true ∧ ob.all fitsOut = true ∧ o.code = 0x029001 := by
    refine ⟨_, _, _, _, _, _, _, _, _, rfl, by decide +kernel, by decide +kernel, rfl, by decide +kernel, rfl, rfl, by decide +kernel,
      rfl, rfl, by decide +kernel, by decide +kernel, by decide +kernel⟩
  have hq : AtRest exOwn (exPair exCaller (exCounting o)) := by
    refine ⟨rfl, rfl, ?_⟩
    intro i s hs
    unfold exPair at hs
    simp only [] at hs
    split at hs
    · rename_i h; subst h
      simp only [Host.threads, Host.ofNode, exCaller, List.append_nil, List.mem_cons, List.not_mem_nil, or_false] at hs
      rw [hs]; rfl
    · split at hs
      · rename_i h; subst h
        simp only [Host.threads, Host.ofNode, exCounting, List.append_nil, List.mem_cons, List.not_mem_nil, or_false] at hs
        rw [hs]; rfl
      · simp [Host.threads, Manager.new] at hs
  have hA : A.transport = exCaller.transport := by
    simp only [Node.step, Node.postMessage, Res.ok.injEq, Prod.mk.injEq] at ha
    rw [← ha.1]; simp [Node.updateTid_transport]
  have hB : B.transport = (exCounting o).transport := (observe_frame hb).2.1
  have toa : ∀ t, Out.tx t ∈ oa → t = ⟨.v4 0xC0A80001, ⟨.v4 0xC0A80002, 3610⟩, (exAsk.setTid 1).bytes⟩ := by
    intro t ht; have := mem_txs.mp ht; rw [hoa] at this; simpa using this
  have tob : ∀ t, Out.tx t ∈ ob → t = ⟨.v4 0xC0A80002, ⟨.v4 0xC0A80001, 3610⟩, exReplied⟩ := by
    intro t ht; have := mem_txs.mp ht; rw [hob] at this; simpa using this
  have moa : Out.tx ⟨.v4 0xC0A80001, ⟨.v4 0xC0A80002, 3610⟩, (exAsk.setTid 1).bytes⟩ ∈ oa := by
    rw [mem_txs, hoa]; simp
  have mob : Out.tx ⟨.v4 0xC0A80002, ⟨.v4 0xC0A80001, 3610⟩, exReplied⟩ ∈ ob := by
    rw [mem_txs, hob]; simp
  have hl1 : Listening (exPair exCaller (exCounting o)) 1 0 := ⟨_, rfl, rfl⟩
  have api : Net.Api .dev db (exPair exCaller (exCounting o)) 0 (.node (.post ⟨.v4 0xC0A80002, 3610⟩ exAsk allOk)) oa _ :=
    .mk { (exPair exCaller (exCounting o)).hosts 0 with node := A } oa [⟨⟨.v4 0xC0A80001, 3610⟩, 1, 0, (exAsk.setTid 1).bytes⟩] trivial
      (by simp [Host.step, exPair, Host.ofNode, ha])
      (by intro p hp
          simp only [List.mem_cons, List.not_mem_nil, or_false] at hp
          subst hp
          exact ⟨_, moa, rfl, rfl⟩)
  have run0 : Prompt .dev db exOwn _ [] _ := .refl ({ (exPair exCaller (exCounting o)).setHost 0
    { (exPair exCaller (exCounting o)).hosts 0 with node := A } with
      flying := (exPair exCaller (exCounting o)).flying ++ [⟨⟨.v4 0xC0A80001, 3610⟩, 1, 0, (exAsk.setTid 1).bytes⟩] } : Net Nat)
  have run1 := prompt_round run0 (p := ⟨⟨.v4 0xC0A80001, 3610⟩, 1, 0, (exAsk.setTid 1).bytes⟩) (rest := [])
    (s := ⟨.v4 0xC0A80002, [.node], .running⟩) [⟨⟨.v4 0xC0A80002, 3610⟩, 0, 0, exReplied⟩] rfl rfl rfl
    (by simp [Net.setHost, exPair, Host.ofNode, Host.threads, exCounting]) rfl rfl hr
    (by simpa [Net.setHost, exPair, Host.ofNode] using hb)
    (by intro p hp
        simp only [List.mem_cons, List.not_mem_nil, or_false] at hp
        subst hp
        exact ⟨_, mob, rfl, rfl, by intro j hj; revert hj; simp [exOwn]⟩)
    (by intro t ht j hj
        rw [tob t ht] at hj
        have : j = 0 := by simpa [exOwn] using hj.symm
        subst this
        refine ⟨_, List.mem_cons_self, rfl, by rw [tob t ht], by rw [tob t ht], ⟨.v4 0xC0A80001, [.node], .running⟩, ?_, rfl⟩
        simp [Net.setHost, exPair, Host.ofNode, Host.threads, hA, exCaller])
  have run2 := prompt_round run1 (p := ⟨⟨.v4 0xC0A80002, 3610⟩, 0, 0, exReplied⟩) (rest := [])
    (s := ⟨.v4 0xC0A80001, [.node], .running⟩) [] rfl rfl rfl
    (by simp [Net.setHost, Host.threads, hA, exCaller]) rfl rfl hm
    (by simpa [Net.setHost] using hobs) (by simp) (by intro t ht; simp at ht)
  refine ⟨_, _, _, oa, _, ⟨hq, ?_, ?_, ?_, ?_, by decide +kernel, by decide +kernel, by decide +kernel, by simp [exPair, Host.ofNode, exCaller], ?_, ?_, ?_⟩,
    run2, ?_, ⟨rfl, rfl⟩, ?_, ?_, ?_⟩
  · exact ⟨⟨0, _, rfl, rfl⟩, by simp [exPair, Host.ofNode, exCaller], by
      intro s hs
      simp only [exPair, Host.threads, Host.ofNode, exCaller, if_true, List.append_nil, List.mem_cons, List.not_mem_nil, or_false] at hs
      rw [hs]; rfl, fun _ => rfl⟩
  · exact ⟨⟨0, _, rfl, rfl⟩, by simp [exPair, Host.ofNode, exCounting], by
      intro s hs
      have : s = ⟨.v4 0xC0A80002, [.node], .running⟩ := by simpa [exPair, Host.threads, Host.ofNode, exCounting] using hs
      rw [this]; rfl, fun _ => rfl⟩
  · intro x hx
    have hx : x = o := by simpa [exPair, Host.ofNode, exCounting] using hx
    subst hx
    refine ⟨?_, Or.inr ?_⟩
    · intro k p hp
      have := hk k
      rw [hp] at this
      simpa using this
    · intro k p hp
      have := hk2 k
      rw [hp] at this
      simpa using this
  · refine ⟨o, by simp [exPair, Host.ofNode, exCounting], ?_⟩
    rw [hcode]; decide +kernel
  · exact ⟨_, .v4 0xC0A80002, .node ⟨.v4 0xC0A80002, 3610⟩ exAsk allOk (fun _ => rfl), rfl, api⟩
  · refine ⟨?_, ?_⟩
    · intro p hp
      have hp : p = ⟨⟨.v4 0xC0A80001, 3610⟩, 1, 0, (exAsk.setTid 1).bytes⟩ := by simpa [exPair] using hp
      subst hp
      exact ⟨_, moa, rfl, rfl⟩
    · intro t ht j hj _
      rw [toa t ht] at hj
      have : j = 1 := by simpa [exOwn] using hj.symm
      subst this
      exact ⟨⟨⟨.v4 0xC0A80001, 3610⟩, 1, 0, (exAsk.setTid 1).bytes⟩, by simp [exPair], rfl, by rw [toa t ht], by rw [toa t ht], hl1⟩
  · intro p hp
    have hp : p = ⟨⟨.v4 0xC0A80001, 3610⟩, 1, 0, (exAsk.setTid 1).bytes⟩ := by simpa [exPair] using hp
    subst hp
    exact Or.inr ⟨_, moa, rfl, rfl, by intro j hj; revert hj; simp [exOwn]⟩
  · intro k g u hu
    simp only [List.nil_append, List.mem_append, List.mem_map, Prod.mk.injEq, List.mem_cons, List.not_mem_nil, or_false] at hu
    rcases hu with ⟨x, hx, _, rfl⟩ | ⟨x, hx, _, rfl⟩ | ⟨x, rfl, _, hx⟩
    · exact fits_all hfit1 hx
    · exact fits_all hfit2 hx
    · cases hx
  · intro h hh
    have : h = countCalls := by simpa [exPair, Host.ofNode, exCounting] using hh
    subst this
    exact fun _ _ _ _ => rfl
  · intro h hh
    have : h = countCalls := by simpa [exPair, Host.ofNode, exCounting] using hh
    subst this
    exact fun _ _ _ _ _ _ _ _ => rfl
  · refine ⟨o, ?_⟩
    have : o.code = exAsk.deoj := by rw [hcode]; decide +kernel
    simp [exPair, Host.ofNode, exCounting, findObject, this]

/-- Non-vacuity of the theorems above for a host that asks itself (as `tests/node_test.rs` does): host 1 posts a read
request to its own address, its receiver thread answers, and then receives and delivers the answer. -/
example (db : Database) : ∃ (n₀ n₁ n₂ : Net Nat) (outs : List Out) (tr : List (Nat × Out)),
    AsksFor .dev db exOwn n₀ 1 1 exAsk outs n₁ ∧ Prompt .dev db exOwn n₁ tr n₂ ∧
    (∀ k g u, (k, Out.handed g u) ∈ outs.map (fun o => (1, o)) ++ tr → Fits u) ∧ (n₂.flying = [] ∧ n₂.busy = []) ∧
    (∀ h ∈ (n₀.hosts 1).node.handlers, Passive h) ∧ (∀ h ∈ (n₀.hosts 1).node.handlers, Stateless h) ∧
    (∃ o, findObject (n₀.hosts 1).node.objects exAsk.deoj = some o) ∧ ∃ a, (1, Out.deliver 0 a) ∈ tr := by
  obtain ⟨o, A, oa, rq, B, ob, rs, A', m', ho, hk, hk2, ha, hoa, hr, hb, hob, hm, hobs, hfit1, hfit2, hcode⟩ :
      ∃ o A oa rq B ob rs A' m', exLight = .ok o ∧ (∀ k : UInt8, ((o.properties k).all (fun p => p.code == k)) = true) ∧
      (∀ k : UInt8, ((o.properties k).all (fun p => decide (0x80 ≤ p.code))) = true) ∧
      (exCounting o).step .dev (.post ⟨.v4 0xC0A80002, 3610⟩ exAsk allOk) = .ok (A, oa) ∧
      txs oa = [(⟨.v4 0xC0A80002, ⟨.v4 0xC0A80002, 3610⟩, (exAsk.setTid 1).bytes⟩ : Tx)] ∧
      recvLoop [.datagram (exAsk.setTid 1).bytes ⟨.v4 0xC0A80002, 3610⟩] = ([rq], .running) ∧
      A.observe .dev .ascending allOk rq = .ok (B, ob) ∧
      txs ob = [(⟨.v4 0xC0A80002, ⟨.v4 0xC0A80002, 3610⟩, exReplied⟩ : Tx)] ∧
      recvLoop [.datagram exReplied ⟨.v4 0xC0A80002, 3610⟩] = ([rs], .running) ∧
      B.observe .dev .ascending allOk rs = .ok (A', [.deliver 0 m']) ∧
      oa.all fitsOut = true ∧ ob.all fitsOut = true ∧ o.code = 0x029001 := by
    refine ⟨_, _, _, _, _, _, _, _, _, rfl, by decide +kernel, by decide +kernel, rfl, by decide +kernel, rfl, rfl, by decide +kernel,
      rfl, rfl, by decide +kernel, by decide +kernel, by decide +kernel⟩
  have hq : AtRest exOwn (exPair exCaller (exCounting o)) := by
    refine ⟨rfl, rfl, ?_⟩
    intro i s hs
    unfold exPair at hs
    simp only [] at hs
    split at hs
    · rename_i h; subst h
      simp only [Host.threads, Host.ofNode, exCaller, List.append_nil, List.mem_cons, List.not_mem_nil, or_false] at hs
      rw [hs]; rfl
    · split at hs
      · rename_i h; subst h
        simp only [Host.threads, Host.ofNode, exCounting, List.append_nil, List.mem_cons, List.not_mem_nil, or_false] at hs
        rw [hs]; rfl
      · simp [Host.threads, Manager.new] at hs
  have hA : A.transport = (exCounting o).transport := by
    simp only [Node.step, Node.postMessage, Res.ok.injEq, Prod.mk.injEq] at ha
    rw [← ha.1]; simp [Node.updateTid_transport]
  have hB : B.transport = (exCounting o).transport := (observe_frame hb).2.1.trans hA
  have toa : ∀ t, Out.tx t ∈ oa → t = ⟨.v4 0xC0A80002, ⟨.v4 0xC0A80002, 3610⟩, (exAsk.setTid 1).bytes⟩ := by
    intro t ht; have := mem_txs.mp ht; rw [hoa] at this; simpa using this
  have tob : ∀ t, Out.tx t ∈ ob → t = ⟨.v4 0xC0A80002, ⟨.v4 0xC0A80002, 3610⟩, exReplied⟩ := by
    intro t ht; have := mem_txs.mp ht; rw [hob] at this; simpa using this
  have moa : Out.tx ⟨.v4 0xC0A80002, ⟨.v4 0xC0A80002, 3610⟩, (exAsk.setTid 1).bytes⟩ ∈ oa := by
    rw [mem_txs, hoa]; simp
  have mob : Out.tx ⟨.v4 0xC0A80002, ⟨.v4 0xC0A80002, 3610⟩, exReplied⟩ ∈ ob := by
    rw [mem_txs, hob]; simp
  have hl1 : Listening (exPair exCaller (exCounting o)) 1 0 := ⟨_, rfl, rfl⟩
  have api : Net.Api .dev db (exPair exCaller (exCounting o)) 1 (.node (.post ⟨.v4 0xC0A80002, 3610⟩ exAsk allOk)) oa _ :=
    .mk { (exPair exCaller (exCounting o)).hosts 1 with node := A } oa [⟨⟨.v4 0xC0A80002, 3610⟩, 1, 0, (exAsk.setTid 1).bytes⟩] trivial
      (by simp [Host.step, exPair, Host.ofNode, ha])
      (by intro p hp
          simp only [List.mem_cons, List.not_mem_nil, or_false] at hp
          subst hp
          exact ⟨_, moa, rfl, rfl⟩)
  have run0 : Prompt .dev db exOwn _ [] _ := .refl ({ (exPair exCaller (exCounting o)).setHost 1
    { (exPair exCaller (exCounting o)).hosts 1 with node := A } with
      flying := (exPair exCaller (exCounting o)).flying ++ [⟨⟨.v4 0xC0A80002, 3610⟩, 1, 0, (exAsk.setTid 1).bytes⟩] } : Net Nat)
  have run1 := prompt_round run0 (p := ⟨⟨.v4 0xC0A80002, 3610⟩, 1, 0, (exAsk.setTid 1).bytes⟩) (rest := [])
    (s := ⟨.v4 0xC0A80002, [.node], .running⟩) [⟨⟨.v4 0xC0A80002, 3610⟩, 1, 0, exReplied⟩] rfl rfl rfl
    (by simp [Net.setHost, Host.threads, hA, exPair, Host.ofNode, exCounting]) rfl rfl hr
    (by simpa [Net.setHost] using hb)
    (by intro p hp
        simp only [List.mem_cons, List.not_mem_nil, or_false] at hp
        subst hp
        exact ⟨_, mob, rfl, rfl, by intro j hj; revert hj; simp [exOwn]⟩)
    (by intro t ht j hj
        rw [tob t ht] at hj
        have : j = 1 := by simpa [exOwn] using hj.symm
        subst this
        refine ⟨_, List.mem_cons_self, rfl, by rw [tob t ht], by rw [tob t ht], ⟨.v4 0xC0A80002, [.node], .running⟩, ?_, rfl⟩
        simp [Net.setHost, Host.threads, hA, exPair, Host.ofNode, exCounting])
  have run2 := prompt_round run1 (p := ⟨⟨.v4 0xC0A80002, 3610⟩, 1, 0, exReplied⟩) (rest := [])
    (s := ⟨.v4 0xC0A80002, [.node], .running⟩) [] rfl rfl rfl
    (by simp [Net.setHost, Host.threads, hB, exPair, Host.ofNode, exCounting]) rfl rfl hm
    (by simpa [Net.setHost] using hobs) (by simp) (by intro t ht; simp at ht)
  have hrun : Running (exPair exCaller (exCounting o)) 1 :=
    ⟨⟨0, _, rfl, rfl⟩, by simp [exPair, Host.ofNode, exCounting], by
      intro s hs
      have : s = ⟨.v4 0xC0A80002, [.node], .running⟩ := by simpa [exPair, Host.threads, Host.ofNode, exCounting] using hs
      rw [this]; rfl, fun _ => rfl⟩
  refine ⟨_, _, _, oa, _, ⟨hq, hrun, hrun, ?_, ?_, by decide +kernel, by decide +kernel, by decide +kernel, by simp [exPair, Host.ofNode, exCounting], ?_, ?_, ?_⟩,
    run2, ?_, ⟨rfl, rfl⟩, ?_, ?_, ?_, m', by simp⟩
  · intro x hx
    have hx : x = o := by simpa [exPair, Host.ofNode, exCounting] using hx
    subst hx
    refine ⟨?_, Or.inr ?_⟩
    · intro k p hp
      have := hk k
      rw [hp] at this
      simpa using this
    · intro k p hp
      have := hk2 k
      rw [hp] at this
      simpa using this
  · refine ⟨o, by simp [exPair, Host.ofNode, exCounting], ?_⟩
    rw [hcode]; decide +kernel
  · exact ⟨_, .v4 0xC0A80002, .node ⟨.v4 0xC0A80002, 3610⟩ exAsk allOk (fun _ => rfl), rfl, api⟩
  · refine ⟨?_, ?_⟩
    · intro p hp
      have hp : p = ⟨⟨.v4 0xC0A80002, 3610⟩, 1, 0, (exAsk.setTid 1).bytes⟩ := by simpa [exPair] using hp
      subst hp
      exact ⟨_, moa, rfl, rfl⟩
    · intro t ht j hj _
      rw [toa t ht] at hj
      have : j = 1 := by simpa [exOwn] using hj.symm
      subst this
      exact ⟨⟨⟨.v4 0xC0A80002, 3610⟩, 1, 0, (exAsk.setTid 1).bytes⟩, by simp [exPair], rfl, by rw [toa t ht], by rw [toa t ht], hl1⟩
  · intro p hp
    have hp : p = ⟨⟨.v4 0xC0A80002, 3610⟩, 1, 0, (exAsk.setTid 1).bytes⟩ := by simpa [exPair] using hp
    subst hp
    exact Or.inr ⟨_, moa, rfl, rfl, by intro j hj; revert hj; simp [exOwn]⟩
  · intro k g u hu
    simp only [List.nil_append, List.mem_append, List.mem_map, Prod.mk.injEq, List.mem_cons, List.not_mem_nil, or_false] at hu
    rcases hu with ⟨x, hx, _, rfl⟩ | ⟨x, hx, _, rfl⟩ | ⟨x, rfl, _, hx⟩
    · exact fits_all hfit1 hx
    · exact fits_all hfit2 hx
    · cases hx
  · intro h hh
    have : h = countCalls := by simpa [exPair, Host.ofNode, exCounting] using hh
    subst this
    exact fun _ _ _ _ => rfl
  · intro h hh
    have : h = countCalls := by simpa [exPair, Host.ofNode, exCounting] using hh
    subst this
    exact fun _ _ _ _ _ _ _ _ => rfl
  · refine ⟨o, ?_⟩
    have : o.code = exAsk.deoj := by rw [hcode]; decide +kernel
    simp [exPair, Host.ofNode, exCounting, findObject, this]

end Uecho
