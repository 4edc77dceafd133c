import Verif.Lemmas.Step
/-!
# Transaction IDs and posted requests: C37 – C41, C51

Histories are arbitrary sequences of API calls and received messages (`Op`), run from an arbitrary state.
-/
namespace Uecho
open Spec
variable {S : Type}

/-- The TIDs assigned automatically: those of the messages given with TID 0, in transmission order. -/
def Spec.autoTids (outs : List Out) : List UInt16 :=
  ((handed outs).filter (fun x => x.1.tid == 0)).map (fun x => x.2.tid)

theorem autoTids_append (a b : List Out) : autoTids (a ++ b) = autoTids a ++ autoTids b := by
  simp [autoTids, handed_append]

theorem setTid_tid (m : Message) (t : UInt16) : (m.setTid t).tid = t :=
  (C09_header_accessors m t 0 .Unknown).1

/-! ## C37 -/

theorem autoTids_run {b : Build} {n n' : Node S} {ops : List (Op S)} {outs : List Out}
    (h : n.run b ops = .ok (n', outs)) :
    autoTids outs = (List.range (autoTids outs).length).map (fun i => n.lastTid + 1 + UInt16.ofNat i) ∧
    n'.lastTid = n.lastTid + UInt16.ofNat (autoTids outs).length := by
  induction ops generalizing n outs with
  | nil =>
    simp only [Node.run, Res.ok.injEq, Prod.mk.injEq] at h
    obtain ⟨rfl, rfl⟩ := h
    simp [autoTids, handed]
  | cons op ops ih =>
    obtain ⟨n₁, o₁, o₂, h1, h2, rfl⟩ := run_cons.mp h
    obtain ⟨ih1, ih2⟩ := ih h2
    rw [autoTids_append]
    rcases step_emission h1 with ⟨hh, _, ht⟩ | ⟨g, u, hh, _, hne, he⟩
    · have : autoTids o₁ = [] := by simp [autoTids, hh]
      rw [this, List.nil_append, ← ht]
      exact ⟨ih1, ih2⟩
    · by_cases hg : g.tid = 0
      · obtain ⟨rfl, ht⟩ := he hg
        have : autoTids o₁ = [n.lastTid + 1] := by simp [autoTids, hh, hg, setTid_tid]
        rw [this]
        constructor
        · simp only [List.cons_append, List.nil_append, List.length_cons]
          rw [List.range_succ_eq_map, List.map_cons, List.map_map]
          congr 1
          · simp
          · conv => lhs; rw [ih1]
            apply List.map_congr_left
            intro i _
            simp only [Function.comp, ht, UInt16.ofNat_add, Nat.succ_eq_add_one]
            rw [UInt16.add_comm (UInt16.ofNat i), ← UInt16.add_assoc]; rfl
        · rw [ih2, ht]
          simp only [List.cons_append, List.nil_append, List.length_cons, UInt16.ofNat_add]
          rw [UInt16.add_comm (UInt16.ofNat _) (UInt16.ofNat 1), ← UInt16.add_assoc]; rfl
      · obtain ⟨rfl, ht⟩ := hne hg
        have : autoTids o₁ = [] := by simp [autoTids, hh, hg]
        rw [this, List.nil_append, ← ht]
        exact ⟨ih1, ih2⟩

/-- C37: over any history the automatically assigned TIDs are consecutive modulo 65536, starting after the
last one used before. -/
theorem C37_consecutive (b : Build) (n n' : Node S) (ops : List (Op S)) (outs : List Out)
    (h : n.run b ops = .ok (n', outs)) (i : Nat) (t : UInt16) (ht : (autoTids outs)[i]? = some t) :
    t.toNat = (n.lastTid.toNat + 1 + i) % 65536 := by
  have hh := (autoTids_run h).1
  rw [hh, List.getElem?_map] at ht
  obtain ⟨j, hj, rfl⟩ := Option.map_eq_some_iff.mp ht
  rw [List.getElem?_range] at hj
  rotate_left
  · have := (List.getElem?_eq_some_iff.mp hj).1
    simpa using this
  obtain rfl := Option.some.inj hj
  simp only [UInt16.toNat_add, UInt16.toNat_ofNat']
  have : (1 : UInt16).toNat = 1 := rfl
  rw [this]
  omega

/-- C37: the automatically assigned TIDs of any window of 65536 consecutive transmissions are pairwise
different, and the next transmission after the history gets the TID after the last one. -/
theorem C37_distinct_in_window (b : Build) (n n' : Node S) (ops : List (Op S)) (outs : List Out)
    (h : n.run b ops = .ok (n', outs)) (i j : Nat) (hij : i < j) (hw : j < i + 65536) (s t : UInt16)
    (hs : (autoTids outs)[i]? = some s) (ht : (autoTids outs)[j]? = some t) : s ≠ t := by
  have h1 := C37_consecutive b n n' ops outs h i s hs
  have h2 := C37_consecutive b n n' ops outs h j t ht
  intro he
  rw [he] at h1
  omega

/-- The wrap-around is reached: after 65535 the automatically assigned TID is 0, a TID the library itself
treats as "no transaction ID". -/
theorem C37_wraps_to_zero (n : Node S) (h : n.lastTid = 65535) (ok : Nat → Bool) (to : SocketAddr)
    (m : Message) (hm : m.tid = 0) : (n.sendMessage ok to m).2.1.tid = 0 := by
  simp only [Node.sendMessage, Node.updateTid_eq, if_pos hm, h, setTid_tid]
  rfl

example : ∃ n : Node Unit, exNode [] = .ok n ∧
    ∃ r, n.run .dev [.send ⟨.v4 1, port⟩ Message.new allOk, .notify (Message.new.setTid 77) allOk,
        .receive ((exRequest .ReadRequest 0).addProperty ⟨0xB0, []⟩) true .ascending allOk] = .ok r ∧
      autoTids r.2 = [6, 7] := by
  refine ⟨_, rfl, _, rfl, ?_⟩; decide +kernel

/-! ## C38 -/

/-- C38: over any history, every message handed to the transport with a non-zero TID goes out unchanged;
a message with TID 0 differs from the one given only in the TID; and every datagram is the encoding of a
message that was handed over. -/
theorem C38_explicit_tids (b : Build) (n n' : Node S) (ops : List (Op S)) (outs : List Out)
    (h : n.run b ops = .ok (n', outs)) :
    (∀ g u, (g, u) ∈ handed outs → (g.tid ≠ 0 → u = g) ∧ (g.tid = 0 → ∃ t, u = g.setTid t)) ∧
    (∀ t ∈ txs outs, ∃ g u, (g, u) ∈ handed outs ∧ t.bytes = u.bytes) := by
  induction ops generalizing n outs with
  | nil =>
    simp only [Node.run, Res.ok.injEq, Prod.mk.injEq] at h
    obtain ⟨rfl, rfl⟩ := h
    simp [handed, txs]
  | cons op ops ih =>
    obtain ⟨n₁, o₁, o₂, h1, h2, rfl⟩ := run_cons.mp h
    obtain ⟨ih1, ih2⟩ := ih n₁ o₂ h2
    rw [handed_append, txs_append]
    have hs : (∀ g u, (g, u) ∈ handed o₁ → (g.tid ≠ 0 → u = g) ∧ (g.tid = 0 → ∃ t, u = g.setTid t)) ∧
        (∀ t ∈ txs o₁, ∃ g u, (g, u) ∈ handed o₁ ∧ t.bytes = u.bytes) := by
      rcases step_emission h1 with ⟨hh, htx, _⟩ | ⟨g, u, hh, htx, hne, he⟩
      · rw [hh, htx]; simp
      · rw [hh]
        constructor
        · intro g' u' hm
          simp only [List.mem_singleton, Prod.mk.injEq] at hm
          obtain ⟨rfl, rfl⟩ := hm
          exact ⟨fun hx => (hne hx).1, fun hx => ⟨_, (he hx).1⟩⟩
        · intro t ht
          exact ⟨g, u, by simp, htx t ht⟩
    constructor
    · intro g u hm
      rcases List.mem_append.mp hm with hm | hm
      · exact hs.1 g u hm
      · exact ih1 g u hm
    · intro t ht
      rcases List.mem_append.mp ht with ht | ht
      · obtain ⟨g, u, hm, hb⟩ := hs.2 t ht
        exact ⟨g, u, List.mem_append_left _ hm, hb⟩
      · obtain ⟨g, u, hm, hb⟩ := ih2 t ht
        exact ⟨g, u, List.mem_append_right _ hm, hb⟩

/-- C38: sending, posting or multicasting a message with a non-zero TID leaves the counter for automatic
TIDs alone; with TID 0 the message gets the next TID, which also becomes visible in the caller's message. -/
theorem C38_counter (n : Node S) (ok : Nat → Bool) (to : SocketAddr) (m : Message) :
    (m.tid ≠ 0 →
      (n.sendMessage ok to m).2.1 = m ∧ (n.sendMessage ok to m).2.2.1.lastTid = n.lastTid ∧
      (n.postMessage ok to m).2.1 = m ∧ (n.postMessage ok to m).2.2.1.lastTid = n.lastTid ∧
      (n.notify ok m).2.1 = m ∧ (n.notify ok m).2.2.1.lastTid = n.lastTid) ∧
    (m.tid = 0 →
      (n.sendMessage ok to m).2.1.tid = n.lastTid + 1 ∧ (n.sendMessage ok to m).2.2.1.lastTid = n.lastTid + 1 ∧
      (n.postMessage ok to m).2.1.tid = n.lastTid + 1 ∧ (n.postMessage ok to m).2.2.1.lastTid = n.lastTid + 1 ∧
      (n.notify ok m).2.1.tid = n.lastTid + 1 ∧ (n.notify ok m).2.2.1.lastTid = n.lastTid + 1) := by
  constructor
  · intro h
    simp only [Node.sendMessage, Node.postMessage, Node.notify, Node.updateTid_eq, if_neg h, and_self]
  · intro h
    simp only [Node.sendMessage, Node.postMessage, Node.notify, Node.updateTid_eq, if_pos h, setTid_tid, and_self]

example : ∃ n : Node Unit, exNode [] = .ok n ∧
    ∃ r, n.run .dev [.send ⟨.v4 1, port⟩ Message.new allOk, .notify (Message.new.setTid 77) allOk] = .ok r ∧
      (replies r.2).map (fun u => u.tid) = [6, 77] ∧ (txs r.2).length = 3 := by
  refine ⟨_, rfl, _, rfl, ?_, ?_⟩ <;> decide +kernel

/-! ## C39 -/

/-- The channel waiting for a response is one that has been handed out. -/
def PostOk (n : Node S) : Prop := ∀ ch, n.post = some ch → ch < n.nextChan

theorem step_postOk {b : Build} {n n' : Node S} {op : Op S} {outs : List Out} (hp : PostOk n)
    (h : n.step b op = .ok (n', outs)) :
    PostOk n' ∧ n.nextChan ≤ n'.nextChan ∧ (∀ ch, n'.post = some ch → n.post = some ch ∨ n.nextChan ≤ ch) ∧
    (∀ ch m, (ch, m) ∈ deliveries outs → n.post = some ch ∧ n'.post = none) ∧ (deliveries outs).length ≤ 1 := by
  rcases step_post h with ⟨_, _, _, _, h1, h2, h3⟩ | ⟨h1, h2, h3⟩ | ⟨_, _, _, m, _, _, _, _, h1, h2, h3⟩
  · refine ⟨?_, by omega, ?_, by simp [h3], by simp [h3]⟩
    · intro ch hc; rw [h1] at hc; simp only [Option.some.injEq] at hc; omega
    · intro ch hc; rw [h1] at hc; simp only [Option.some.injEq] at hc; right; omega
  · refine ⟨?_, by omega, fun ch hc => Or.inl (by rw [← h2]; exact hc), by simp [h3], by simp [h3]⟩
    intro ch hc; rw [h1]; exact hp ch (by rw [← h2]; exact hc)
  · refine ⟨?_, by omega, ?_, ?_, ?_⟩
    · intro ch hc; simp [h2] at hc
    · intro ch hc; simp [h2] at hc
    · intro ch m' hm
      rw [h3] at hm
      cases hpost : n.post with
      | none => simp [hpost] at hm
      | some c =>
        simp only [hpost, Option.map_some, Option.toList_some, List.mem_singleton, Prod.mk.injEq] at hm
        exact ⟨by rw [hm.1], h2⟩
    · rw [h3]; cases n.post <;> simp

/-- After a run, a delivered channel is either the one that was pending at the start or a new one. -/
theorem run_deliveries {b : Build} {n n' : Node S} {ops : List (Op S)} {outs : List Out} (hp : PostOk n)
    (h : n.run b ops = .ok (n', outs)) :
    PostOk n' ∧ n.nextChan ≤ n'.nextChan ∧ (∀ ch, n'.post = some ch → n.post = some ch ∨ n.nextChan ≤ ch) ∧
    (∀ ch m, (ch, m) ∈ deliveries outs → n.post = some ch ∨ n.nextChan ≤ ch) ∧
    (∀ ch m, (ch, m) ∈ deliveries outs → n'.post ≠ some ch ∧ ch < n'.nextChan) ∧
    ((deliveries outs).map (fun x => x.1)).Nodup := by
  induction ops generalizing n outs with
  | nil =>
    simp only [Node.run, Res.ok.injEq, Prod.mk.injEq] at h
    obtain ⟨rfl, rfl⟩ := h
    exact ⟨hp, Nat.le_refl _, fun ch hc => Or.inl hc, by simp [deliveries], by simp [deliveries],
      by simp [deliveries]⟩
  | cons op ops ih =>
    obtain ⟨n₁, o₁, o₂, h1, h2, rfl⟩ := run_cons.mp h
    obtain ⟨p1, p2, p3, p4, p5⟩ := step_postOk hp h1
    obtain ⟨q1, q2, q3, q4, q5, q6⟩ := ih p1 h2
    rw [deliveries_append]
    have fresh : ∀ ch, n₁.post = some ch ∨ n₁.nextChan ≤ ch → n.post = some ch ∨ n.nextChan ≤ ch := by
      intro ch hc
      rcases hc with hc | hc
      · exact p3 ch hc
      · right; omega
    have old : ∀ ch m, (ch, m) ∈ deliveries o₁ → n₁.post = none ∧ ch < n₁.nextChan := by
      intro ch m hm
      obtain ⟨a, b⟩ := p4 ch m hm
      have := hp ch a
      exact ⟨b, by omega⟩
    have sep : ∀ ch m, (ch, m) ∈ deliveries o₁ → ∀ ch' m', (ch', m') ∈ deliveries o₂ → ch ≠ ch' := by
      intro ch m hm ch' m' hm' he
      subst he
      obtain ⟨a, b⟩ := old ch m hm
      rcases q4 ch m' hm' with hc | hc
      · simp [a] at hc
      · omega
    refine ⟨q1, by omega, fun ch hc => fresh ch (q3 ch hc), ?_, ?_, ?_⟩
    · intro ch m hm
      rcases List.mem_append.mp hm with hm | hm
      · exact Or.inl (p4 ch m hm).1
      · exact fresh ch (q4 ch m hm)
    · intro ch m hm
      rcases List.mem_append.mp hm with hm | hm
      · obtain ⟨a, b⟩ := old ch m hm
        refine ⟨fun hc => ?_, by omega⟩
        rcases q3 ch hc with hc | hc
        · simp [a] at hc
        · omega
      · exact q5 ch m hm
    · rw [List.map_append, List.nodup_append]
      refine ⟨?_, q6, ?_⟩
      · match hd : deliveries o₁, p5 with
        | [], _ => simp
        | [x], _ => simp
        | _ :: _ :: _, hl => rw [hd] at p5; simp at p5
      · intro x hx y hy
        obtain ⟨⟨c1, m1⟩, hx1, rfl⟩ := List.mem_map.mp hx
        obtain ⟨⟨c2, m2⟩, hy1, rfl⟩ := List.mem_map.mp hy
        exact sep c1 m1 hx1 c2 m2 hy1

/-- Where the pending channel comes from. -/
theorem post_origin {b : Build} {n n' : Node S} {ops : List (Op S)} {outs : List Out} {ch : Nat}
    (h : n.run b ops = .ok (n', outs)) (hc : n'.post = some ch) :
    (n.post = some ch ∧ ∀ op ∈ ops, ∀ to m ok, op ≠ .post to m ok) ∨
    ∃ p1 to m ok p2 n₁ o₁, ops = p1 ++ .post to m ok :: p2 ∧ n.run b p1 = .ok (n₁, o₁) ∧
      (n₁.postMessage ok to m).1 = ch ∧ ∀ op ∈ p2, ∀ to m ok, op ≠ .post to m ok := by
  induction ops generalizing n outs with
  | nil =>
    simp only [Node.run, Res.ok.injEq, Prod.mk.injEq] at h
    obtain ⟨rfl, rfl⟩ := h
    exact Or.inl ⟨hc, by simp⟩
  | cons op ops ih =>
    obtain ⟨n₁, o₁, o₂, h1, h2, rfl⟩ := run_cons.mp h
    rcases ih h2 with ⟨hp, hno⟩ | ⟨p1, to, m, ok, p2, n₂, o', rfl, hr, hch, hno⟩
    · rcases step_post h1 with ⟨to, m, ok, rfl, e1, e2, _⟩ | ⟨e1, e2, e3⟩ | ⟨_, _, _, _, _, _, _, _, _, e2, _⟩
      · right
        refine ⟨[], to, m, ok, ops, n, [], rfl, rfl, ?_, hno⟩
        rw [e1] at hp
        simp only [Node.postMessage, Option.some.injEq] at hp ⊢
        rw [Node.updateTid_frame]; exact hp
      · by_cases hop : ∃ to m ok, op = .post to m ok
        · obtain ⟨to, m, ok, rfl⟩ := hop
          exfalso
          simp only [Node.step, Node.postMessage, Res.ok.injEq, Prod.mk.injEq] at h1
          obtain ⟨rfl, _⟩ := h1
          simp only [] at e1
          rw [Node.updateTid_frame] at e1
          simp only [] at e1
          omega
        · left
          refine ⟨by rw [← e2]; exact hp, ?_⟩
          intro op' hm to m ok he
          rcases List.mem_cons.mp hm with rfl | hm
          · exact hop ⟨to, m, ok, he⟩
          · exact hno op' hm to m ok he
      · simp [e2] at hp
    · right
      refine ⟨op :: p1, to, m, ok, p2, n₂, o₁ ++ o', rfl, ?_, hch, hno⟩
      exact run_cons.mpr ⟨n₁, o₁, o', h1, hr, rfl⟩

/-- C39: over any history each channel returned by `post_message` gets at most one message, and every
message a channel gets is (a copy of) a received non-request message whose TID was the node's latest
automatic TID at that moment; the channel is the one of the most recent post, after which no other message
was delivered to it. -/
theorem C39_at_most_one (b : Build) (n n' : Node S) (ops : List (Op S)) (outs : List Out)
    (hn : n.post = none) (h : n.run b ops = .ok (n', outs)) :
    ((deliveries outs).map (fun x => x.1)).Nodup ∧
    ∀ ch m, (ch, m) ∈ deliveries outs → ∃ pre msg ω ok suf n₁ o₁,
      ops = pre ++ .receive msg true ω ok :: suf ∧ n.run b pre = .ok (n₁, o₁) ∧
      isRequestByte msg.esvByte = false ∧ msg.tid = n₁.lastTid ∧ msg.clone = .ok m ∧
      ∃ p1 to req ok' p2 n₂ o₂, pre = p1 ++ .post to req ok' :: p2 ∧ n.run b p1 = .ok (n₂, o₂) ∧
        (n₂.postMessage ok' to req).1 = ch ∧ ∀ op ∈ p2, ∀ to m ok, op ≠ .post to m ok := by
  have hp : PostOk n := by intro ch hc; simp [hn] at hc
  refine ⟨(run_deliveries hp h).2.2.2.2.2, fun ch m hm => ?_⟩
  have key : ∃ pre msg ω ok suf n₁ o₁, ops = pre ++ .receive msg true ω ok :: suf ∧
      n.run b pre = .ok (n₁, o₁) ∧ isRequestByte msg.esvByte = false ∧ msg.tid = n₁.lastTid ∧
      msg.clone = .ok m ∧ n₁.post = some ch := by
    clear hp hn
    induction ops generalizing n outs with
    | nil =>
      simp only [Node.run, Res.ok.injEq, Prod.mk.injEq] at h
      obtain ⟨rfl, rfl⟩ := h
      simp [deliveries] at hm
    | cons op ops ih =>
      obtain ⟨n₁, o₁, o₂, h1, h2, rfl⟩ := run_cons.mp h
      rw [deliveries_append] at hm
      rcases List.mem_append.mp hm with hm | hm
      · rcases step_post h1 with ⟨_, _, _, _, _, _, e⟩ | ⟨_, _, e⟩ | ⟨msg, ω, ok, m', rfl, e1, e2, e3, _, _, e4⟩
        · simp [e] at hm
        · simp [e] at hm
        · rw [e4] at hm
          cases hpost : n.post with
          | none => simp [hpost] at hm
          | some c =>
            simp only [hpost, Option.map_some, Option.toList_some, List.mem_singleton, Prod.mk.injEq] at hm
            obtain ⟨rfl, rfl⟩ := hm
            exact ⟨[], msg, ω, ok, ops, n, [], rfl, rfl, e1, e2, e3, hpost⟩
      · obtain ⟨pre, msg, ω, ok, suf, n₂, o₃, rfl, hr, e1, e2, e3, e4⟩ := ih n₁ o₂ h2 hm
        exact ⟨op :: pre, msg, ω, ok, suf, n₂, o₁ ++ o₃, rfl, run_cons.mpr ⟨n₁, o₁, o₃, h1, hr, rfl⟩,
          e1, e2, e3, e4⟩
  obtain ⟨pre, msg, ω, ok, suf, n₁, o₁, rfl, hr, e1, e2, e3, e4⟩ := key
  refine ⟨pre, msg, ω, ok, suf, n₁, o₁, rfl, hr, e1, e2, e3, ?_⟩
  rcases post_origin hr e4 with ⟨hx, _⟩ | hx
  · simp [hn] at hx
  · exact hx

/-- The TID check does not tie the response to the posted request: if, after a post, another message is sent
with an automatic TID, the response to that other message is delivered to the receiver of the post. -/
theorem C39_may_answer_other_request (b : Build) (ω : HashOrder) (ok ok' ok'' : Nat → Bool) (n : Node S)
    (to to' : SocketAddr) (req req' : Message) (h' : req'.tid = 0) (msg : Message)
    (hm : isRequestByte msg.esvByte = false) (ht : msg.tid =
      (((n.postMessage ok to req).2.2.1).sendMessage ok' to' req').2.1.tid) (n' : Node S) (outs : List Out)
    (h : (((n.postMessage ok to req).2.2.1).sendMessage ok' to' req').2.2.1.observe b ω ok'' msg
      = .ok (n', outs)) :
    ∃ m, msg.clone = .ok m ∧ deliveries outs = [((n.postMessage ok to req).1, m)] := by
  have h1 := observe_post h
  rw [if_pos ⟨hm, by
    rw [ht, ((C38_counter _ ok' to' req').2 h').1, ((C38_counter _ ok' to' req').2 h').2.1]⟩] at h1
  obtain ⟨_, m, hc, hd⟩ := h1
  refine ⟨m, hc, ?_⟩
  rw [hd]
  simp only [Node.sendMessage, Node.postMessage]
  rw [Node.updateTid_frame]
  rfl

/-- Post, response, second response with the same TID: only the first is delivered. -/
example : ∃ n : Node Unit, exNode [] = .ok n ∧ n.post = none ∧
    ∃ r, n.run .dev [.post ⟨.v4 1, port⟩ Message.new allOk,
        .receive ((exRequest .ReadResponse 6).addProperty ⟨0xB0, [1]⟩) true .ascending allOk,
        .receive ((exRequest .ReadResponse 6).addProperty ⟨0xB0, [2]⟩) true .ascending allOk] = .ok r ∧
      (deliveries r.2).map (fun x => (x.1, x.2.tid, x.2.properties)) = [(0, 6, [⟨0xB0, [1]⟩])] := by
  refine ⟨_, rfl, rfl, _, rfl, ?_⟩; decide +kernel

/-! ## C40 -/

/-- What a run without posts, automatic TIDs and deliveries leaves alone. -/
theorem run_quiet {b : Build} {n n' : Node S} {ops : List (Op S)} {outs : List Out}
    (h : n.run b ops = .ok (n', outs)) (hno : ∀ op ∈ ops, ∀ to m ok, op ≠ .post to m ok)
    (hauto : autoTids outs = [])
    (hresp : ∀ msg ω ok, Op.receive msg true ω ok ∈ ops → isRequestByte msg.esvByte = true ∨ msg.tid ≠ n.lastTid) :
    n'.post = n.post ∧ n'.lastTid = n.lastTid := by
  induction ops generalizing n outs with
  | nil =>
    simp only [Node.run, Res.ok.injEq, Prod.mk.injEq] at h
    obtain ⟨rfl, rfl⟩ := h
    exact ⟨rfl, rfl⟩
  | cons op ops ih =>
    obtain ⟨n₁, o₁, o₂, h1, h2, rfl⟩ := run_cons.mp h
    rw [autoTids_append, List.append_eq_nil_iff] at hauto
    have ht : n₁.lastTid = n.lastTid := by
      rcases step_emission h1 with ⟨_, _, ht⟩ | ⟨g, u, hh, _, hne, he⟩
      · exact ht
      · by_cases hg : g.tid = 0
        · have := hauto.1
          simp [autoTids, hh, hg] at this
        · exact (hne hg).2
    have hp : n₁.post = n.post := by
      rcases step_post h1 with ⟨to, m, ok, rfl, _⟩ | ⟨_, e, _⟩ | ⟨msg, ω, ok, m, rfl, e1, e2, _⟩
      · exact absurd rfl (hno _ (by simp) to m ok)
      · exact e
      · rcases hresp msg ω ok (by simp) with hr | hr
        · simp [hr] at e1
        · exact absurd e2 hr
    have := ih h2 (fun op hm => hno op (by simp [hm])) hauto.2 (by
      intro msg ω ok hm
      rw [ht]; exact hresp msg ω ok (by simp [hm]))
    exact ⟨this.1.trans hp, this.2.trans ht⟩

/-- C40 (partial: automatic TID, no automatically numbered transmission and no other post or matching
response since, service other than 0x5E): the first response with the TID under which the posted request
was transmitted is delivered to its receiver, complete except for the sender address. In between, any other
API calls and any other messages are allowed. -/
theorem C40_delivered_partial (b : Build) (n n₁ n' : Node S) (to : SocketAddr) (req : Message) (ok ok' : Nat → Bool)
    (hreq : req.tid = 0) (mid : List (Op S)) (o₁ outs : List Out)
    (h₁ : (n.postMessage ok to req).2.2.1.run b mid = .ok (n₁, o₁))
    (hno : ∀ op ∈ mid, ∀ to m ok, op ≠ .post to m ok) (hauto : autoTids o₁ = [])
    (hresp : ∀ msg ω ok'', Op.receive msg true ω ok'' ∈ mid →
      isRequestByte msg.esvByte = true ∨ msg.tid ≠ (n.postMessage ok to req).2.1.tid)
    (msg : Message) (ω : HashOrder) (hm : isRequestByte msg.esvByte = false)
    (ht : msg.tid = (n.postMessage ok to req).2.1.tid)
    (hf : msg.isFormat1 = true) (hs : SizesOk msg) (h5 : msg.esvByte ≠ 0x5E)
    (h : n₁.observe b ω ok' msg = .ok (n', outs)) :
    ∃ m, deliveries outs = [((n.postMessage ok to req).1, m)] ∧ m.tid = msg.tid ∧ m.seoj = msg.seoj ∧
      m.deoj = msg.deoj ∧ m.esvByte = msg.esvByte ∧ frameOf m = frameOf msg := by
  have hc := (C38_counter n ok to req).2 hreq
  have hq := run_quiet h₁ hno hauto (by
    intro msg ω ok'' hm
    rw [hc.2.2.2.1, ← hc.2.2.1]; exact hresp msg ω ok'' hm)
  have h1 := observe_post h
  rw [if_pos ⟨hm, by rw [ht, hq.2, hc.2.2.1, hc.2.2.2.1]⟩] at h1
  obtain ⟨_, m, hcl, hd⟩ := h1
  obtain ⟨m', e0, e1, e2, e3, e4, e5, _⟩ := C07_clone_partial msg hf hs h5
  have : m' = m := by rw [e0] at hcl; simpa using hcl
  subst this
  refine ⟨m', ?_, e1, e2, e3, e4, e5⟩
  rw [hd, hq.1]
  simp only [Node.postMessage]
  rfl

/-- C40 fails for explicit TIDs: the response to a request posted with a non-zero TID other than the latest
automatic one is never delivered (whatever its contents). -/
theorem C40_explicit_tid_fails (b : Build) (ω : HashOrder) (n n' : Node S) (to : SocketAddr) (req : Message)
    (ok ok' : Nat → Bool) (h0 : req.tid ≠ 0) (hne : req.tid ≠ n.lastTid) (msg : Message)
    (ht : msg.tid = (n.postMessage ok to req).2.1.tid) (outs : List Out)
    (h : (n.postMessage ok to req).2.2.1.observe b ω ok' msg = .ok (n', outs)) : deliveries outs = [] := by
  have hc := (C38_counter n ok to req).1 h0
  have h1 := observe_post h
  rw [if_neg (by
    rintro ⟨_, h'⟩
    rw [ht, hc.2.2.1, hc.2.2.2.1] at h'
    exact hne h')] at h1
  exact h1.2

/-- C40 fails if, between the request and its response, the node answers a request that has TID 0: answering
uses up a TID, and the awaited response is then ignored. -/
theorem C40_tid_zero_request_fails (b : Build) (ω : HashOrder) (n n₁ n' : Node S) (to : SocketAddr)
    (req : Message) (ok ok' : Nat → Bool) (hreq : req.tid = 0) (mid : List (Op S)) (o₁ outs : List Out)
    (h₁ : (n.postMessage ok to req).2.2.1.run b mid = .ok (n₁, o₁))
    (hauto : (autoTids o₁).length = 1) (msg : Message) (ht : msg.tid = (n.postMessage ok to req).2.1.tid)
    (h : n₁.observe b ω ok' msg = .ok (n', outs)) : deliveries outs = [] := by
  have hc := (C38_counter n ok to req).2 hreq
  have hl := (autoTids_run h₁).2
  have h1 := observe_post h
  rw [if_neg (by
    rintro ⟨_, h'⟩
    rw [ht, hl, hauto, hc.2.2.1, hc.2.2.2.1] at h'
    have := congrArg UInt16.toNat h'
    rw [UInt16.toNat_add (n.lastTid + 1)] at this
    have hlt := (n.lastTid + 1).toNat_lt
    have e1 : (UInt16.ofNat 1).toNat = 1 := rfl
    rw [e1] at this
    omega)] at h1
  exact h1.2

/-- C40 fails for the error response 0x5E: its arrival with the awaited TID panics while the node is locked. -/
theorem C40_write_read_error_panics (b : Build) (ω : HashOrder) (ok : Nat → Bool) (n : Node S) (msg : Message)
    (h5 : msg.esvByte = 0x5E) (ht : msg.tid = n.lastTid) (hf : msg.isFormat1 = true) (hs : SizesOk msg) :
    n.observe b ω ok msg = .panic := by
  have hl : n.isLastMessageResponse msg = true := by
    unfold Node.isLastMessageResponse
    rw [Message.esv, isRequest_byte, h5, ht]
    simp [isRequestByte]
  simp only [Node.observe, Node.observePost, hl, if_true, C07_clone_panics_for_0x5E msg hf hs h5]
  rfl

/-- Non-vacuity of `C40_delivered_partial`: a request is posted, another request is answered, an unrelated
response is ignored, then the awaited response arrives. -/
example : ∃ n : Node Unit, exNode [acceptAll] = .ok n ∧
    ∃ r, (n.postMessage allOk ⟨.v4 1, port⟩ Message.new).2.2.1.run .dev
        [.receive ((exRequest .ReadRequest 9).addProperty ⟨0xB0, []⟩) true .ascending allOk,
         .receive ((exRequest .ReadResponse 8).addProperty ⟨0xB0, [2]⟩) true .ascending allOk] = .ok r ∧
      autoTids r.2 = [] ∧ (replies r.2).length = 1 ∧
      ∃ r', r.1.observe .dev .ascending allOk ((exRequest .ReadResponse 6).addProperty ⟨0xB0, [1]⟩) = .ok r' ∧
      (deliveries r'.2).map (fun x => (x.1, x.2.tid, x.2.properties)) = [(0, 6, [⟨0xB0, [1]⟩])] := by
  refine ⟨_, rfl, _, rfl, ?_, ?_, _, rfl, ?_⟩ <;> decide +kernel

/-- Non-vacuity of `C40_tid_zero_request_fails`. -/
example : ∃ n : Node Unit, exNode [acceptAll] = .ok n ∧
    ∃ r, (n.postMessage allOk ⟨.v4 1, port⟩ Message.new).2.2.1.run .dev
        [.receive ((exRequest .ReadRequest 0).addProperty ⟨0xB0, []⟩) true .ascending allOk] = .ok r ∧
      (autoTids r.2).length = 1 ∧
      ∃ r', r.1.observe .dev .ascending allOk ((exRequest .ReadResponse 6).addProperty ⟨0xB0, [1]⟩) = .ok r' ∧
      deliveries r'.2 = [] := by
  refine ⟨_, rfl, _, rfl, ?_, _, rfl, ?_⟩ <;> decide +kernel

/-! ## C41 -/

/-- C41: once a second request has been posted, the receiver of the first one never gets a message, whatever
happened between the two posts and whatever happens afterwards. -/
theorem C41_superseded (b : Build) (n n₁ n₂ : Node S) (to to' : SocketAddr) (req req' : Message)
    (ok ok' : Nat → Bool) (mid rest : List (Op S)) (o₁ o₂ : List Out)
    (h₁ : (n.postMessage ok to req).2.2.1.run b mid = .ok (n₁, o₁))
    (h₂ : (n₁.postMessage ok' to' req').2.2.1.run b rest = .ok (n₂, o₂)) :
    ∀ m, ((n.postMessage ok to req).1, m) ∉ deliveries o₂ := by
  intro m hm
  have step : ∀ (n : Node S) (to : SocketAddr) (req : Message) (ok : Nat → Bool),
      (n.postMessage ok to req).1 = n.nextChan ∧
      (n.postMessage ok to req).2.2.1.post = some n.nextChan ∧
      (n.postMessage ok to req).2.2.1.nextChan = n.nextChan + 1 := by
    intro n to req ok
    simp only [Node.postMessage]
    rw [Node.updateTid_frame]
    exact ⟨rfl, rfl, rfl⟩
  obtain ⟨a1, a2, a3⟩ := step n to req ok
  obtain ⟨b1, b2, b3⟩ := step n₁ to' req' ok'
  have p1 : PostOk (n.postMessage ok to req).2.2.1 := by
    intro ch hc; rw [a2] at hc; rw [a3]; simp only [Option.some.injEq] at hc; omega
  have q := run_deliveries p1 h₁
  have p2 : PostOk (n₁.postMessage ok' to' req').2.2.1 := by
    intro ch hc; rw [b2] at hc; rw [b3]; simp only [Option.some.injEq] at hc; omega
  have r := (run_deliveries p2 h₂).2.2.2.1 _ _ hm
  rw [a1, b2, b3] at r
  have := q.2.1
  rw [a3] at this
  rcases r with r | r
  · simp only [Option.some.injEq] at r; omega
  · omega

/-- The initial state of `C39_at_most_one`: a new node has no pending post. -/
theorem new_node_post (b : Build) (db : Database) (u₁ u₂ : List UInt8) (ω : HashOrder) (app : S) (n : Node S)
    (h : Node.new b db u₁ u₂ ω app = .ok n) : n.post = none := by
  unfold Node.new at h
  obtain ⟨np, _, h⟩ := Res.bind_eq_ok.mp h
  obtain ⟨n₀, h0, h⟩ := Res.bind_eq_ok.mp h
  simp only [Res.pure_eq, Res.ok.injEq] at h
  have hp : n.post = none := by
    rw [← h]
    show n₀.post = none
    rw [addObject_frame h0]
  exact hp

example : ∃ n : Node Unit, exNode [acceptAll] = .ok n ∧
    ∃ r, (n.postMessage allOk ⟨.v4 1, port⟩ Message.new).2.2.1.run .dev [.stop] = .ok r ∧
    ∃ r', (r.1.postMessage allOk ⟨.v4 1, port⟩ Message.new).2.2.1.run .dev
        [.receive ((exRequest .ReadResponse 6).addProperty ⟨0xB0, [1]⟩) true .ascending allOk,
         .receive ((exRequest .ReadResponse 7).addProperty ⟨0xB0, [2]⟩) true .ascending allOk] = .ok r' ∧
      (deliveries r'.2).map (fun x => (x.1, x.2.tid)) = [(1, 7)] := by
  refine ⟨_, rfl, _, rfl, _, rfl, ?_⟩
  decide +kernel

/-! ## C51 -/

/-- C51: a message that arrives while another thread holds the node's mutex has no effect at all: no state
change, no reply, no delivery, no panic — whatever the message is. -/
theorem C51_locked_node (b : Build) (ω : HashOrder) (ok : Nat → Bool) (n : Node S) (msg : Message) :
    n.observeTry b ω ok false msg = .ok (n, []) := rfl

/-- C51: hence histories may be read with such messages deleted. -/
theorem C51_locked_messages_vanish (b : Build) (n : Node S) (l : List Arrival) :
    n.run b (arrivals l) = n.run b (arrivals (l.filter (fun a => a.free))) := by
  induction l generalizing n with
  | nil => rfl
  | cons a l ih =>
    cases hf : a.free with
    | false =>
      rw [List.filter_cons_of_neg (by simp [hf]), ← ih]
      simp only [arrivals, List.map_cons, Node.run, Node.step, Node.observeTry, hf, Bool.not_false, if_true,
        Res.bind_ok]
      generalize n.run b _ = r
      cases r <;> rfl
    | true =>
      rw [List.filter_cons_of_pos (by simp [hf])]
      simp only [arrivals, List.map_cons, Node.run]
      congr 1
      funext r
      have := ih r.1
      simp only [arrivals] at this
      rw [this]

end Uecho
