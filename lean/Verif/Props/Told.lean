import Verif.Spec.Told
import Verif.Props.Carried
/-!
# Notifications on a network reach every observer and change nothing: C98
-/
namespace Uecho
open Spec
variable {S : Type}

/-- The message, received. -/
def ToldCopy (u q : Message) : Prop :=
  frameOf q = frameOf u ∧ Received q ∧
    (isWriteReadByte u.esvByte = false → q.setProperties = [] ∧ q.getProperties = []) ∧
    (isWriteReadByte u.esvByte = true → q.properties = [])

theorem told_received {u : Message} (hf : Fits u) (hfmt : u.isFormat1 = true) (h5 : u.esvByte ≠ 0x5E) (src : SocketAddr) :
    ∃ q, recvLoop [.datagram u.bytes src] = ([q], .running) ∧ ToldCopy u q ∧ q.sender = src := by
  have he := Message.bytes_eq_encode u hfmt h5
  have hl := hf.2
  rw [he] at hl
  obtain ⟨q, g1, g2, _, _, _, _, _, k2⟩ := recv_frame (frameOf u) (frameOf_valid _ hf.1) hl src
  rw [← he] at g1
  refine ⟨q, g1, ⟨?_, ⟨_, _, g1⟩, fun hw => ?_, fun hw => ?_⟩, g2⟩
  · rcases recvOne u.bytes src with ⟨m, e, k1, k2, _⟩ | k | k
    · rw [g1] at k1
      simp only [Prod.mk.injEq, List.cons.injEq, and_true] at k1
      rw [← k1.1] at k2
      obtain ⟨r1, r2, _⟩ := reads_received k2
      exact reads_frame r1 r2 rfl (frameOf_valid _ hf.1) hfmt h5
    · rw [g1] at k; simp at k
    · rw [g1] at k; simp at k
  · simp only [frameOf, hw, Bool.false_eq_true, if_false] at k2
    exact k2.2
  · simp only [frameOf, hw, if_true] at k2
    exact k2.1

/-- Copies under way to host `j`, as in `toTell`, for a fixed host. -/
def flyTell (h : Host S) (j : Nat) (l : List Packet) : List (Nat × SocketAddr) :=
  l.flatMap (fun p => if p.host = j then (listenersOf h p.srv).map (fun k => (k, p.src)) else [])

/-- Observers that busy threads of host `j` still have to call. -/
def busyTell (j : Nat) (l : List Busy) : List (Nat × SocketAddr) :=
  l.flatMap (fun q => if q.host = j then (users q.todo).map (fun k => (k, q.msg.sender)) else [])

theorem toTell_eq (n : Net S) (j : Nat) : toTell n j = flyTell (n.hosts j) j n.flying := by
  unfold toTell flyTell
  generalize n.flying = l
  induction l with
  | nil => rfl
  | cons p l ih =>
    rw [List.flatMap_cons, ← ih]
    by_cases h : p.host = j
    · rw [List.filter_cons_of_pos (by simp [h]), List.flatMap_cons, if_pos h]
    · rw [List.filter_cons_of_neg (by simp [h]), if_neg h]; rfl

theorem listenersOf_congr {h h' : Host S} (ht : h'.node.transport = h.node.transport) (k : Nat) :
    listenersOf h' k = listenersOf h k := by
  unfold listenersOf Host.threads; rw [ht]

structure ToldInv (u : Message) (n₁ : Net S) (tr : List (Nat × Out)) (n : Net S) : Prop where
  transport : ∀ j, (n.hosts j).node.transport = (n₁.hosts j).node.transport
  contents : ∀ j, SameContents (n₁.hosts j).node (n.hosts j).node
  sound : ∀ j o, n.poisoned j o = false
  fly : ∀ p ∈ n.flying, p.bytes = u.bytes
  busy : ∀ q ∈ n.busy, ToldCopy u q.msg
  quiet : ∀ k t, (k, Out.tx t) ∉ tr
  seen : ∀ j, ∃ l, (n.hosts j).seen = (n₁.hosts j).seen ++ l ∧ (∀ x ∈ l, ToldCopy u x.2) ∧
    ∀ x, (l.map (fun y => (y.1, y.2.sender))).count x + (flyTell (n₁.hosts j) j n.flying).count x +
      (busyTell j n.busy).count x = (flyTell (n₁.hosts j) j n₁.flying).count x

/-- What an observer does with a notification or response. -/
theorem told_invoke {b : Build} {ω₀ : HashOrder} {db : Database} (hdb : standardDb b ω₀ = .ok db) {h : Host S} {m : Message}
    (hm : Received m) (hr : isResponseByte m.esvByte = true) (h5 : m.esvByte ≠ 0x5E) {env : CallEnv}
    (hu : ∀ i, (env.uuid i).length = 16) (o : ObserverRef) :
    ∃ h' outs, h.invoke b db env m o = .ok (h', outs) ∧ txs outs = [] ∧ SameContents h.node h'.node ∧
      h'.node.transport = h.node.transport ∧ h'.seen = h.seen ++ (users [o]).map (fun k => (k, m)) := by
  cases o with
  | controller =>
    obtain ⟨r, h1⟩ := observeController_ok hdb env hu h.remotes m
    refine ⟨{ h with remotes := r }, [], ?_, rfl, ⟨rfl, rfl, rfl⟩, rfl, by simp [users]⟩
    simp only [Host.invoke, h1, Res.bind_ok, Res.pure_eq]
  | device => exact ⟨h, [], rfl, rfl, ⟨rfl, rfl, rfl⟩, rfl, by simp [users]⟩
  | user k => exact ⟨{ h with seen := h.seen ++ [(k, m)] }, [], rfl, rfl, ⟨rfl, rfl, rfl⟩, rfl, by simp [users]⟩
  | node =>
    have hq : isRequestByte m.esvByte = false := by
      cases hx : isRequestByte m.esvByte with
      | false => rfl
      | true => rw [isRequest_not_response _ hx] at hr; cases hr
    cases hf : env.nodeFree with
    | false =>
      refine ⟨h, [], ?_, rfl, ⟨rfl, rfl, rfl⟩, rfl, by simp [users]⟩
      simp only [Host.invoke, Node.observeTry, hf, Bool.not_false, if_true, Res.bind_ok, Res.pure_eq]
    | true =>
      obtain ⟨f1, f2⟩ := received_fields hm
      obtain ⟨n', outs, hobs⟩ := observe_response_ok b env.ω env.ok h.node m hr f1 f2 h5
      refine ⟨{ h with node := n' }, outs, ?_, (Node.observe_nonrequest hq hobs).2.1, observe_other hq hobs,
        (observe_frame hobs).2.1, by simp [users]⟩
      simp only [Host.invoke, Node.observeTry, hf, Bool.not_true, Bool.false_eq_true, if_false, hobs, Res.bind_ok, Res.pure_eq]

theorem flyTell_split (h : Host S) (j : Nat) (l₁ l₂ : List Packet) (p : Packet) (x : Nat × SocketAddr) :
    (flyTell h j (l₁ ++ p :: l₂)).count x = (flyTell h j (l₁ ++ l₂)).count x + (flyTell h j [p]).count x := by
  unfold flyTell
  simp only [List.flatMap_append, List.flatMap_cons, List.flatMap_nil, List.append_nil, List.count_append]
  omega

theorem busyTell_split (j : Nat) (l₁ l₂ : List Busy) (q : Busy) (x : Nat × SocketAddr) :
    (busyTell j (l₁ ++ q :: l₂)).count x = (busyTell j (l₁ ++ l₂)).count x + (busyTell j [q]).count x := by
  unfold busyTell
  simp only [List.flatMap_append, List.flatMap_cons, List.flatMap_nil, List.append_nil, List.count_append]
  omega

theorem busyTell_single (j : Nat) (q : Busy) :
    busyTell j [q] = if q.host = j then (users q.todo).map (fun k => (k, q.msg.sender)) else [] := by
  unfold busyTell; simp

theorem flyTell_single (h : Host S) (j : Nat) (p : Packet) :
    flyTell h j [p] = if p.host = j then (listenersOf h p.srv).map (fun k => (k, p.src)) else [] := by
  unfold flyTell; simp

theorem told_step {b : Build} {ω₀ : HashOrder} {db : Database} (hdb : standardDb b ω₀ = .ok db) {own : IpAddr → Option Nat}
    {u : Message} (hfit : Fits u) (hfmt : u.isFormat1 = true) (hresp : isResponseByte u.esvByte = true)
    (h5 : u.esvByte ≠ 0x5E) {n₁ n n' : Net S} {tr : List (Nat × Out)} {k : Nat} {outs : List Out}
    (inv : ToldInv u n₁ tr n) (h : Reliable b db own n k outs n') :
    ToldInv u n₁ (tr ++ outs.map (fun o => (k, o))) n' := by
  cases h with
  | receive l₁ l₂ p s hf hs hrun hidle =>
    have hp : p ∈ n.flying := by rw [hf]; simp
    obtain ⟨q, hq, hc, hsrc⟩ := told_received hfit hfmt h5 p.src
    rw [← inv.fly p hp] at hq
    have hx : n.received p s (l₁ ++ l₂) =
        { n with flying := l₁ ++ l₂, busy := n.busy ++ [⟨p.host, p.srv, q, s.observers⟩] } := by
      unfold Net.received; rw [hq]
    rw [hx]
    simp only [List.map_nil, List.append_nil]
    refine ⟨inv.transport, inv.contents, inv.sound, fun p' hp' => inv.fly p' (mem_of_split hf hp'), ?_, inv.quiet, ?_⟩
    · intro q' hq'
      rcases List.mem_append.mp hq' with hq' | hq'
      · exact inv.busy q' hq'
      · rw [List.mem_singleton.mp hq']; exact hc
    · intro j
      obtain ⟨l, g1, g2, g3⟩ := inv.seen j
      refine ⟨l, g1, g2, fun x => ?_⟩
      have := g3 x
      rw [hf, flyTell_split, flyTell_single] at this
      have hb := busyTell_split j n.busy [] ⟨p.host, p.srv, q, s.observers⟩ x
      rw [List.append_nil, busyTell_single] at hb
      show _ + (flyTell _ j (l₁ ++ l₂)).count x + (busyTell j (n.busy ++ [⟨p.host, p.srv, q, s.observers⟩])).count x = _
      rw [hb]
      simp only []
      by_cases hj : p.host = j
      · have hlis : listenersOf (n₁.hosts j) p.srv = users s.observers := by
          rw [← listenersOf_congr (inv.transport j)]
          unfold listenersOf
          rw [← hj, hs]
          simp only [hrun]
        rw [if_pos hj, hlis] at this
        rw [if_pos hj, hsrc]
        omega
      · rw [if_neg hj] at this ⊢
        simp only [List.count_nil] at this ⊢
        omega
  | drop l₁ l₂ p hf hd =>
    simp only [List.map_nil, List.append_nil]
    refine ⟨inv.transport, inv.contents, inv.sound, fun p' hp' => inv.fly p' (mem_of_split hf hp'), inv.busy, inv.quiet, ?_⟩
    intro j
    obtain ⟨l, g1, g2, g3⟩ := inv.seen j
    refine ⟨l, g1, g2, fun x => ?_⟩
    have := g3 x
    rw [hf, flyTell_split, flyTell_single] at this
    show _ + (flyTell _ j (l₁ ++ l₂)).count x + _ = _
    by_cases hj : p.host = j
    · have hlis : listenersOf (n₁.hosts j) p.srv = [] := by
        rw [← listenersOf_congr (inv.transport j)]
        unfold listenersOf
        cases hs : (n.hosts j).threads[p.srv]? with
        | none => rfl
        | some s =>
          simp only []
          cases ht : s.thread with
          | running => exact absurd ⟨s, by rw [hj]; exact hs, ht⟩ hd
          | _ => rfl
      rw [if_pos hj, hlis] at this
      simp only [List.map_nil, List.count_nil] at this
      omega
    · rw [if_neg hj] at this
      simp only [List.count_nil] at this
      omega
  | done l₁ l₂ q hb ht =>
    simp only [List.map_nil, List.append_nil]
    refine ⟨inv.transport, inv.contents, inv.sound, inv.fly, fun q' hq' => inv.busy q' (mem_of_split hb hq'), inv.quiet, ?_⟩
    intro j
    obtain ⟨l, g1, g2, g3⟩ := inv.seen j
    refine ⟨l, g1, g2, fun x => ?_⟩
    have := g3 x
    rw [hb, busyTell_split, busyTell_single, ht] at this
    have he : (if q.host = j then (users []).map (fun k => (k, q.msg.sender)) else []) = ([] : List (Nat × SocketAddr)) := by
      split <;> rfl
    rw [he, List.count_nil] at this
    show _ + _ + (busyTell j (l₁ ++ l₂)).count x = _
    omega
  | skip l₁ l₂ q o os hb ht hpo hm => rw [inv.sound] at hpo; cases hpo
  | infected l₁ l₂ q o os hb ht hpo => rw [inv.sound] at hpo; cases hpo
  | die l₁ l₂ q o os ev hb ht hpo hu hfree hok hinv =>
    exfalso
    have hc := inv.busy q (by rw [hb]; simp)
    have he : q.msg.esvByte = u.esvByte := congrArg Frame.esv hc.1
    obtain ⟨h', outs', g, _⟩ := told_invoke (h := n.hosts q.host) hdb hc.2.1 (by rw [he]; exact hresp) (by rw [he]; exact h5) hu o
    rw [hinv] at g; cases g
  | call l₁ l₂ q o os ev h' outs ps hb ht hpo hu hfree hok hinv hps =>
    have hq : q ∈ n.busy := by rw [hb]; simp
    have hc := inv.busy q hq
    have he : q.msg.esvByte = u.esvByte := congrArg Frame.esv hc.1
    obtain ⟨h'', outs', g1, g2, g3, g4, g5⟩ := told_invoke (h := n.hosts q.host) hdb hc.2.1 (by rw [he]; exact hresp)
      (by rw [he]; exact h5) hu o
    rw [hinv] at g1
    simp only [Res.ok.injEq, Prod.mk.injEq] at g1
    obtain ⟨rfl, rfl⟩ := g1
    have hnone : ∀ t, Out.tx t ∉ outs := by
      intro t h; have := mem_txs.mp h; rw [g2] at this; simp at this
    have hnil : ps = [] := by
      cases ps with
      | nil => rfl
      | cons p ps =>
        obtain ⟨t, h, _⟩ := hps.1 p List.mem_cons_self
        exact absurd h (hnone t)
    subst hnil
    have hhost : ∀ j, (n.setHost q.host h').hosts j = if j = q.host then h' else n.hosts j := fun j => rfl
    refine ⟨?_, ?_, inv.sound, ?_, ?_, ?_, ?_⟩
    · intro j
      show ((n.setHost q.host h').hosts j).node.transport = _
      rw [hhost]
      split
      · rename_i hj; rw [g4, hj]; exact inv.transport q.host
      · exact inv.transport j
    · intro j
      show SameContents _ ((n.setHost q.host h').hosts j).node
      rw [hhost]
      split
      · rename_i hj; rw [hj]; exact (inv.contents q.host).trans g3
      · exact inv.contents j
    · intro p hp
      exact inv.fly p (by simpa using hp)
    · intro q' hq'
      rcases List.mem_append.mp hq' with h | h
      · exact inv.busy q' (by rw [hb]; simp [h])
      · rcases List.mem_cons.mp h with rfl | h
        · exact hc
        · exact inv.busy q' (by rw [hb]; simp [h])
    · intro c t hx
      rcases List.mem_append.mp hx with hx | hx
      · exact inv.quiet c t hx
      · exact hnone t (mem_map_host.mp hx).2
    · intro j
      obtain ⟨l, k1, k2, k3⟩ := inv.seen j
      show ∃ l, ((n.setHost q.host h').hosts j).seen = _ ∧ _ ∧ ∀ x, _ + (flyTell _ j (n.flying ++ [])).count x +
        (busyTell j (l₁ ++ { q with todo := os } :: l₂)).count x = _
      rw [hhost, List.append_nil]
      by_cases hj : j = q.host
      · refine ⟨l ++ (users [o]).map (fun k => (k, q.msg)), ?_, ?_, fun x => ?_⟩
        · rw [if_pos hj, g5, ← hj, k1, List.append_assoc]
        · intro x hx
          rcases List.mem_append.mp hx with hx | hx
          · exact k2 x hx
          · obtain ⟨k, _, rfl⟩ := List.mem_map.mp hx
            exact hc
        · have := k3 x
          rw [hb, busyTell_split, busyTell_single, ht, if_pos hj.symm] at this
          rw [busyTell_split, busyTell_single, if_pos hj.symm]
          rw [show o :: os = [o] ++ os from rfl] at this
          unfold users at this ⊢
          rw [List.filterMap_append, List.map_append, List.count_append] at this
          rw [List.map_append, List.count_append, List.map_map]
          simp only [Function.comp_def]
          omega
      · refine ⟨l, by rw [if_neg hj]; exact k1, k2, fun x => ?_⟩
        have := k3 x
        rw [hb, busyTell_split, busyTell_single, if_neg (fun h => hj h.symm)] at this
        rw [busyTell_split, busyTell_single, if_neg (fun h => hj h.symm)]
        exact this

theorem told_run {b : Build} {ω₀ : HashOrder} {db : Database} (hdb : standardDb b ω₀ = .ok db) {own : IpAddr → Option Nat}
    {u : Message} (hfit : Fits u) (hfmt : u.isFormat1 = true) (hresp : isResponseByte u.esvByte = true)
    (h5 : u.esvByte ≠ 0x5E) {n₁ n : Net S} {tr : List (Nat × Out)} (h0 : ToldInv u n₁ [] n₁)
    (h : Prompt b db own n₁ tr n) : ToldInv u n₁ tr n := by
  induction h with
  | refl => exact h0
  | step _ h' _ ih => exact told_step hdb hfit hfmt hresp h5 ih h'

/-- What the call puts out. -/
theorem publishes_start {b : Build} {db : Database} {n₀ n₁ : Net S} {i : Nat} {m : Message} {outs : List Out} {op : HostOp S}
    (hp : Publishes op m) (ha : Net.Api b db n₀ i op outs n₁) :
    (outs = [] ∨ ∃ g, Out.handed g ((n₀.hosts i).node.updateTid m).1 ∈ outs) ∧
    (∀ t, Out.tx t ∈ outs → t.bytes = ((n₀.hosts i).node.updateTid m).1.bytes) ∧
    n₁.busy = n₀.busy ∧ n₁.poisoned = n₀.poisoned ∧
    ∀ p ∈ n₁.flying, p ∈ n₀.flying ∨ ∃ t, Out.tx t ∈ outs ∧ p.bytes = t.bytes := by
  have hsend : ∀ (ok : Nat → Bool) (to : SocketAddr) (m : Message) (t : Tx),
      Out.tx t ∈ ((n₀.hosts i).node.sendMessage ok to m).2.2.2 → t.bytes = ((n₀.hosts i).node.updateTid m).1.bytes := by
    intro ok to m t ht
    unfold Node.sendMessage at ht
    simp only [List.mem_cons, reduceCtorEq, false_or, List.mem_map, Out.tx.injEq, exists_eq_right] at ht
    rcases Manager.send_cases ok ((n₀.hosts i).node.updateTid m).2.transport to ((n₀.hosts i).node.updateTid m).1 with
      ⟨_, h⟩ | ⟨_, s, _, h⟩
    · rw [h] at ht; simp at ht
    · rw [h] at ht; rw [List.mem_singleton.mp ht]
  have hnot : ∀ (ok : Nat → Bool) (m : Message) (t : Tx),
      Out.tx t ∈ ((n₀.hosts i).node.notify ok m).2.2.2 → t.bytes = ((n₀.hosts i).node.updateTid m).1.bytes := by
    intro ok m t ht
    unfold Node.notify at ht
    simp only [List.mem_cons, reduceCtorEq, false_or, List.mem_map, Out.tx.injEq, exists_eq_right] at ht
    obtain ⟨k, h, _⟩ := Manager.notify_cases ok ((n₀.hosts i).node.updateTid m).2.transport ((n₀.hosts i).node.updateTid m).1
    rw [h] at ht
    obtain ⟨s, _, rfl⟩ := List.mem_map.mp ht
    rfl
  cases ha with
  | mk h' _ ps hapi hstep hps =>
    have hfl : ∀ p ∈ ({ n₀.setHost i h' with flying := n₀.flying ++ ps } : Net S).flying,
        p ∈ n₀.flying ∨ ∃ t, Out.tx t ∈ outs ∧ p.bytes = t.bytes := by
      intro p hp
      rcases List.mem_append.mp hp with hp | hp
      · exact Or.inl hp
      · obtain ⟨t, h1, h2, _⟩ := hps p hp
        exact Or.inr ⟨t, h1, h2⟩
    refine ⟨?_, ?_, rfl, rfl, hfl⟩
    · cases hp with
      | notify m ok =>
        simp only [Host.step, Node.step, Res.bind_ok, Res.pure_eq, Res.ok.injEq, Prod.mk.injEq] at hstep
        right; rw [← hstep.2]; exact ⟨m, by simp [Node.notify]⟩
      | announce obj prop ok =>
        simp only [Host.step, Node.step, Res.bind_ok, Res.pure_eq, Res.ok.injEq, Prod.mk.injEq] at hstep
        right; rw [← hstep.2]; exact ⟨Node.announceMessage obj prop, List.mem_cons_self ..⟩
      | nodeSend to m ok =>
        simp only [Host.step, Node.step, Res.bind_ok, Res.pure_eq, Res.ok.injEq, Prod.mk.injEq] at hstep
        right; rw [← hstep.2]; exact ⟨m, by simp [Node.sendMessage]⟩
      | send r m free ok =>
        simp only [Host.step, Host.sendMessage, Res.ok.injEq] at hstep
        cases free with
        | false =>
          simp only [Bool.not_false, if_true, Prod.mk.injEq] at hstep
          exact Or.inl hstep.2.symm
        | true =>
          simp only [Bool.not_true, Bool.false_eq_true, if_false, Prod.mk.injEq] at hstep
          rw [show nodeProfileCode = profileCode from rfl] at hstep
          right; rw [← hstep.2]; exact ⟨m.setSeoj profileCode, List.mem_cons_self ..⟩
    · intro t ht
      cases hp with
      | notify m ok =>
        simp only [Host.step, Node.step, Res.bind_ok, Res.pure_eq, Res.ok.injEq, Prod.mk.injEq] at hstep
        rw [← hstep.2] at ht; exact hnot ok m t ht
      | announce obj prop ok =>
        simp only [Host.step, Node.step, Res.bind_ok, Res.pure_eq, Res.ok.injEq, Prod.mk.injEq] at hstep
        rw [← hstep.2] at ht; exact hnot ok _ t ht
      | nodeSend to m ok =>
        simp only [Host.step, Node.step, Res.bind_ok, Res.pure_eq, Res.ok.injEq, Prod.mk.injEq] at hstep
        rw [← hstep.2] at ht; exact hsend ok to m t ht
      | send r m free ok =>
        simp only [Host.step, Host.sendMessage, Res.ok.injEq] at hstep
        cases free with
        | false =>
          simp only [Bool.not_false, if_true, Prod.mk.injEq] at hstep
          rw [← hstep.2] at ht; simp at ht
        | true =>
          simp only [Bool.not_true, Bool.false_eq_true, if_false, Prod.mk.injEq] at hstep
          rw [show nodeProfileCode = profileCode from rfl] at hstep
          rw [← hstep.2] at ht; exact hsend ok _ _ t ht

/-! ## C98 -/

/-- C98: a notification (or other response) that an application sends out on a network at rest only informs: once the
network is at rest again, whatever the interleaving of the receiver threads, at every host each observer of the application
has been called exactly once for each copy delivered to a running thread it is registered with (and each registration), with
the message that was sent, and nothing else; nobody has put out another datagram; and no object and no request handler of any
node has changed. -/
theorem C98_told (b : Build) (ω₀ : HashOrder) (db : Database) (hdb : standardDb b ω₀ = .ok db) (own : IpAddr → Option Nat)
    (n₀ n₁ n₂ : Net S) (i : Nat) (m : Message) (outs : List Out) (ha : Tells b db n₀ i m outs n₁) (tr : List (Nat × Out))
    (hrun : Prompt b db own n₁ tr n₂) (hend : n₂.flying = [] ∧ n₂.busy = []) :
    (∀ j, ∃ l, (n₂.hosts j).seen = (n₁.hosts j).seen ++ l ∧ (∀ x ∈ l, SentAs m x.2) ∧
      (l.map (fun x => (x.1, x.2.sender))).Perm (toTell n₁ j)) ∧
    (∀ k t, (k, Out.tx t) ∉ tr) ∧
    ∀ j, SameContents (n₁.hosts j).node (n₂.hosts j).node := by
  obtain ⟨op, hp, hapi⟩ := ha.call
  obtain ⟨s1, s2, s3, s4, s5⟩ := publishes_start hp hapi
  obtain ⟨u1, u2⟩ := updateTid_sent (n₀.hosts i).node m
  obtain ⟨_, _, u3, _, _, _, u4, _⟩ := updateTid_fields (n₀.hosts i).node m
  generalize ((n₀.hosts i).node.updateTid m).1 = u at *
  by_cases hout : outs = []
  · -- nothing was sent at all
    have hf : n₁.flying = [] := by
      cases hfl : n₁.flying with
      | nil => rfl
      | cons p ps =>
        rcases s5 p (by rw [hfl]; simp) with h | ⟨t, h, _⟩
        · rw [ha.flying] at h; simp at h
        · rw [hout] at h; simp at h
    have hb : n₁.busy = [] := by rw [s3]; exact ha.busy
    have key : ∀ {tr : List (Nat × Out)} {n : Net S}, Prompt b db own n₁ tr n → n = n₁ ∧ tr = [] := by
      intro tr n h
      induction h with
      | refl => exact ⟨rfl, rfl⟩
      | step _ h' _ ih =>
        obtain ⟨rfl, _⟩ := ih
        exfalso
        cases h' with
        | receive l₁ l₂ p s h => rw [hf] at h; simp at h
        | drop l₁ l₂ p h => rw [hf] at h; simp at h
        | call l₁ l₂ q o os e h' outs ps h => rw [hb] at h; simp at h
        | die l₁ l₂ q o os e h => rw [hb] at h; simp at h
        | infected l₁ l₂ q o os h => rw [hb] at h; simp at h
        | skip l₁ l₂ q o os h => rw [hb] at h; simp at h
        | done l₁ l₂ q h => rw [hb] at h; simp at h
    obtain ⟨rfl, rfl⟩ := key hrun
    refine ⟨fun j => ⟨[], by simp, by simp, by unfold toTell; rw [hf]; simp⟩, by simp, fun j => ⟨rfl, rfl, rfl⟩⟩
  · obtain ⟨g, hg⟩ := s1.resolve_left hout
    have hfu : Fits u := ha.fits g u hg
    have inv0 : ToldInv u n₁ [] n₁ := by
      refine ⟨fun _ => rfl, fun _ => ⟨rfl, rfl, rfl⟩, by rw [s4]; exact ha.sound, ?_, by rw [s3, ha.busy]; simp, by simp, ?_⟩
      · intro p hp
        rcases s5 p hp with h | ⟨t, h1, h2⟩
        · rw [ha.flying] at h; simp at h
        · rw [h2]; exact s2 t h1
      · intro j
        refine ⟨[], by simp, by simp, fun x => ?_⟩
        rw [s3, ha.busy]
        simp [busyTell]
    have inv := told_run hdb hfu (by rw [u4]; exact ha.format) (by rw [u3]; exact ha.service) (by rw [u3]; exact ha.not5E) inv0
      hrun
    refine ⟨fun j => ?_, inv.quiet, inv.contents⟩
    obtain ⟨l, g1, g2, g3⟩ := inv.seen j
    refine ⟨l, g1, ?_, ?_⟩
    · intro x hx
      obtain ⟨k1, _, k2, k3⟩ := g2 x hx
      have ht : x.2.tid = u.tid := UInt16.toNat.inj (congrArg Frame.tid k1)
      rw [u3] at k2 k3
      exact ⟨by rw [k1, u1, ht], fun h => by rw [ht]; exact u2 h, k2, k3⟩
    · rw [List.perm_iff_count]
      intro x
      have := g3 x
      rw [hend.1, hend.2] at this
      rw [toTell_eq, ← this]
      simp [flyTell, busyTell]

/-- A notification of the value 0x42 of property 0xB0. -/
def exInform : Message := (exPost .Notification).addProperty ⟨0xB0, [0x42]⟩

/-- A node with an application that has registered an observer. -/
def exListener : Node Nat :=
  ⟨⟨[⟨.v4 0xC0A80002, [.node, .user 7], .running⟩], []⟩, [], 0, none, 0, [], [.node, .user 7], 0⟩

/-- Non-vacuity of `C98_told`: host 0 sends a notification of which the network delivers two copies to host 1, the network
comes to rest, and the observer of the application there has been called twice. -/
example : ∃ (db : Database) (n₀ n₁ n₂ : Net Nat) (outs : List Out) (tr : List (Nat × Out)),
    standardDb .dev .ascending = .ok db ∧ Tells .dev db n₀ 0 exInform outs n₁ ∧
    Prompt .dev db exOwn n₁ tr n₂ ∧ (n₂.flying = [] ∧ n₂.busy = []) ∧
    (n₁.hosts 1).seen = [] ∧
    (n₂.hosts 1).seen.map (fun x => (x.1, x.2.sender)) = [(7, ⟨.v4 0xC0A80001, 3610⟩), (7, ⟨.v4 0xC0A80001, 3610⟩)] := by
  obtain ⟨db, hdb, _⟩ := C21_builds .dev .ascending
  let a := exCaller
  let m := exInform
  let t : Tx := ⟨.v4 0xC0A80001, ⟨.v4 0xC0A80002, 3610⟩, (a.updateTid m).1.bytes⟩
  let p : Packet := ⟨⟨.v4 0xC0A80001, 3610⟩, 1, 0, (a.updateTid m).1.bytes⟩
  have hstep : ((exHosts a exListener).hosts 0).step .dev db (.node (.send ⟨.v4 0xC0A80002, 3610⟩ m allOk)) =
      .ok ({ (Host.ofNode a) with node := (a.updateTid m).2 }, [.handed m (a.updateTid m).1, .tx t]) := by
    have h1 : ((a.updateTid m).2.transport.send allOk ⟨.v4 0xC0A80002, 3610⟩ (a.updateTid m).1).2 = [t] := by
      rw [Node.updateTid_transport]; rfl
    show (Host.ofNode a).step .dev db _ = _
    simp only [Host.step, Node.step, Node.sendMessage, Host.ofNode, h1, Res.bind_ok, Res.pure_eq, List.map_cons, List.map_nil]
  have api : Net.Api .dev db (exHosts a exListener) 0 (.node (.send ⟨.v4 0xC0A80002, 3610⟩ m allOk))
      [.handed m (a.updateTid m).1, .tx t] _ :=
    .mk _ _ [p, p] trivial hstep (by
      intro q hq
      have hq : q = p := by simpa using hq
      rw [hq]
      exact ⟨t, by simp, rfl, rfl⟩)
  have htells : Tells .dev db (exHosts a exListener) 0 exInform _ _ :=
    ⟨rfl, rfl, fun _ _ => rfl, by decide +kernel, by decide +kernel, by decide +kernel, ⟨_, .nodeSend _ _ _, api⟩, by
      intro g u hu
      have : g = m ∧ u = (a.updateTid m).1 := by simpa using hu
      rw [this.2]; unfold Fits; decide +kernel⟩
  obtain ⟨tr, n₂, hrun, hend⟩ := (C84_progress (S := Nat) .dev db exOwn).2.2 _
  refine ⟨db, _, _, n₂, _, tr, hdb, htells, hrun, hend, rfl, ?_⟩
  obtain ⟨l, h1, _, h2⟩ := (C98_told .dev .ascending db hdb exOwn _ _ n₂ 0 exInform _ htells tr hrun hend).1 1
  rw [h1]
  exact List.perm_replicate.mp (show List.Perm _ (List.replicate 2 ((7 : Nat), (⟨.v4 0xC0A80001, 3610⟩ : SocketAddr))) from h2)

end Uecho
