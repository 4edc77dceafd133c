import Verif.Spec.Chatter
import Verif.Props.Known
/-!
# Notifications sent at any time by several hosts: C100
-/
namespace Uecho
open Spec
variable {S : Type}

/-- What is in a datagram. -/
def pktFrame (p : Packet) : Frame :=
  match recvLoop [.datagram p.bytes p.src] with
  | ([q], _) => frameOf q
  | _ => ⟨0, 0, 0, 0, .single []⟩

/-- Copies under way to host `j`. -/
def flyChat (h : Host S) (j : Nat) (l : List Packet) : List (Nat × SocketAddr × Frame) :=
  l.flatMap (fun p => if p.host = j then (listenersOf h p.srv).map (fun k => (k, p.src, pktFrame p)) else [])

/-- Observers that busy threads of host `j` still have to call. -/
def busyChat (j : Nat) (l : List Busy) : List (Nat × SocketAddr × Frame) :=
  l.flatMap (fun q => if q.host = j then (users q.todo).map (fun k => (k, q.msg.sender, frameOf q.msg)) else [])

/-- The message put out is well-formed, and the one the application wanted to send. -/
def Chatty (e : Sending) : Prop :=
  Fits e.handed ∧ e.handed.isFormat1 = true ∧ isResponseByte e.handed.esvByte = true ∧ e.handed.esvByte ≠ 0x5E ∧
    frameOf e.handed = { frameOf e.message with tid := e.handed.tid.toNat } ∧ (e.message.tid ≠ 0 → e.handed.tid = e.message.tid)

structure ChatInv (sent : List Sending) (n₁ : Net S) (tr : List (Nat × Out)) (n : Net S) : Prop where
  packets : ∀ e ∈ sent, ∀ p ∈ e.packets, Chatty e ∧ p.bytes = e.handed.bytes
  transport : ∀ j, (n.hosts j).node.transport = (n₁.hosts j).node.transport
  contents : ∀ j, SameContents (n₁.hosts j).node (n.hosts j).node
  sound : ∀ j o, n.poisoned j o = false
  fly : ∀ p ∈ n.flying, ∃ e ∈ sent, Chatty e ∧ p.bytes = e.handed.bytes
  busy : ∀ q ∈ n.busy, ∃ e ∈ sent, Chatty e ∧ ToldCopy e.handed q.msg
  quiet : ∀ k t, (k, Out.tx t) ∉ tr
  seen : ∀ j, ∃ l, (n.hosts j).seen = (n₁.hosts j).seen ++ l ∧ (∀ x ∈ l, ∃ e ∈ sent, Chatty e ∧ ToldCopy e.handed x.2) ∧
    ∀ x, (l.map (fun y => (y.1, y.2.sender, frameOf y.2))).count x + (flyChat (n₁.hosts j) j n.flying).count x +
      (busyChat j n.busy).count x = (flyChat (n₁.hosts j) j (sent.flatMap Sending.packets)).count x

theorem flyChat_append (h : Host S) (j : Nat) (l₁ l₂ : List Packet) : flyChat h j (l₁ ++ l₂) = flyChat h j l₁ ++ flyChat h j l₂ := by
  unfold flyChat; rw [List.flatMap_append]

theorem flyChat_split (h : Host S) (j : Nat) (l₁ l₂ : List Packet) (p : Packet) (x : Nat × SocketAddr × Frame) :
    (flyChat h j (l₁ ++ p :: l₂)).count x = (flyChat h j (l₁ ++ l₂)).count x + (flyChat h j [p]).count x := by
  unfold flyChat
  simp only [List.flatMap_append, List.flatMap_cons, List.flatMap_nil, List.append_nil, List.count_append]
  omega

theorem busyChat_split (j : Nat) (l₁ l₂ : List Busy) (q : Busy) (x : Nat × SocketAddr × Frame) :
    (busyChat j (l₁ ++ q :: l₂)).count x = (busyChat j (l₁ ++ l₂)).count x + (busyChat j [q]).count x := by
  unfold busyChat
  simp only [List.flatMap_append, List.flatMap_cons, List.flatMap_nil, List.append_nil, List.count_append]
  omega

theorem busyChat_single (j : Nat) (q : Busy) :
    busyChat j [q] = if q.host = j then (users q.todo).map (fun k => (k, q.msg.sender, frameOf q.msg)) else [] := by
  unfold busyChat; simp

theorem flyChat_single (h : Host S) (j : Nat) (p : Packet) :
    flyChat h j [p] = if p.host = j then (listenersOf h p.srv).map (fun k => (k, p.src, pktFrame p)) else [] := by
  unfold flyChat; simp

theorem updateTid_still (n : Node S) (m : Message) :
    (n.updateTid m).2.transport = n.transport ∧ SameContents n (n.updateTid m).2 := by
  rw [Node.updateTid_eq]
  split <;> exact ⟨rfl, rfl, rfl, rfl⟩

theorem publishes_others {b : Build} {db : Database} {n₀ n₁ : Net S} {i : Nat} {m : Message} {outs : List Out} {op : HostOp S}
    (hp : Publishes op m) (ha : Net.Api b db n₀ i op outs n₁) (j : Nat) :
    (n₁.hosts j).seen = (n₀.hosts j).seen ∧ (n₁.hosts j).node.transport = (n₀.hosts j).node.transport ∧
      SameContents (n₀.hosts j).node (n₁.hosts j).node := by
  cases ha with
  | mk h' _ ps hapi hstep hps =>
    have hh : h'.seen = (n₀.hosts i).seen ∧ h'.node.transport = (n₀.hosts i).node.transport ∧
        SameContents (n₀.hosts i).node h'.node := by
      cases hp with
      | notify m ok =>
        simp only [Host.step, Node.step, Res.bind_ok, Res.pure_eq, Res.ok.injEq, Prod.mk.injEq] at hstep
        rw [← hstep.1]
        exact ⟨rfl, updateTid_still _ m⟩
      | announce obj prop ok =>
        simp only [Host.step, Node.step, Res.bind_ok, Res.pure_eq, Res.ok.injEq, Prod.mk.injEq] at hstep
        rw [← hstep.1]
        exact ⟨rfl, updateTid_still _ (Node.announceMessage obj prop)⟩
      | nodeSend to m ok =>
        simp only [Host.step, Node.step, Res.bind_ok, Res.pure_eq, Res.ok.injEq, Prod.mk.injEq] at hstep
        rw [← hstep.1]
        exact ⟨rfl, updateTid_still _ m⟩
      | send r m free ok =>
        simp only [Host.step, Host.sendMessage, Res.ok.injEq] at hstep
        cases free with
        | false =>
          simp only [Bool.not_false, if_true, Prod.mk.injEq] at hstep
          rw [← hstep.1]
          exact ⟨rfl, rfl, rfl, rfl, rfl⟩
        | true =>
          simp only [Bool.not_true, Bool.false_eq_true, if_false, Prod.mk.injEq] at hstep
          rw [← hstep.1]
          exact ⟨rfl, updateTid_still _ (m.setSeoj nodeProfileCode)⟩
    show ((n₀.setHost i h').hosts j).seen = _ ∧ ((n₀.setHost i h').hosts j).node.transport = _ ∧
      SameContents _ ((n₀.setHost i h').hosts j).node
    unfold Net.setHost
    simp only []
    split
    · rename_i hj; rw [hj]; exact hh
    · exact ⟨rfl, rfl, rfl, rfl, rfl⟩

theorem chat_step {b : Build} {ω₀ : HashOrder} {db : Database} (hdb : standardDb b ω₀ = .ok db) {own : IpAddr → Option Nat}
    {sent : List Sending} {n₁ n n' : Net S} {tr : List (Nat × Out)} {k : Nat} {outs : List Out}
    (inv : ChatInv sent n₁ tr n) (h : Reliable b db own n k outs n') :
    ChatInv sent n₁ (tr ++ outs.map (fun o => (k, o))) n' := by
  cases h with
  | receive l₁ l₂ p s hf hs hrun hidle =>
    have hp : p ∈ n.flying := by rw [hf]; simp
    obtain ⟨e, he, hgood, hbytes⟩ := inv.fly p hp
    obtain ⟨q, hq, hc, hsrc⟩ := told_received hgood.1 hgood.2.1 hgood.2.2.2.1 p.src
    rw [← hbytes] at hq
    have hpf : pktFrame p = frameOf q := by unfold pktFrame; rw [hq]
    have hx : n.received p s (l₁ ++ l₂) =
        { n with flying := l₁ ++ l₂, busy := n.busy ++ [⟨p.host, p.srv, q, s.observers⟩] } := by
      unfold Net.received; rw [hq]
    rw [hx]
    simp only [List.map_nil, List.append_nil]
    refine ⟨inv.packets, inv.transport, inv.contents, inv.sound, fun p' hp' => inv.fly p' (mem_of_split hf hp'), ?_, inv.quiet, ?_⟩
    · intro q' hq'
      rcases List.mem_append.mp hq' with hq' | hq'
      · exact inv.busy q' hq'
      · rw [List.mem_singleton.mp hq']; exact ⟨e, he, hgood, hc⟩
    · intro j
      obtain ⟨l, g1, g2, g3⟩ := inv.seen j
      refine ⟨l, g1, g2, fun x => ?_⟩
      have := g3 x
      rw [hf, flyChat_split, flyChat_single] at this
      have hb := busyChat_split j n.busy [] ⟨p.host, p.srv, q, s.observers⟩ x
      rw [List.append_nil, busyChat_single] at hb
      show _ + (flyChat _ j (l₁ ++ l₂)).count x + (busyChat j (n.busy ++ [⟨p.host, p.srv, q, s.observers⟩])).count x = _
      rw [hb]
      simp only []
      by_cases hj : p.host = j
      · have hlis : listenersOf (n₁.hosts j) p.srv = users s.observers := by
          rw [← listenersOf_congr (inv.transport j)]
          unfold listenersOf
          rw [← hj, hs]
          simp only [hrun]
        rw [if_pos hj, hlis] at this
        rw [if_pos hj, hsrc, ← hpf]
        omega
      · rw [if_neg hj] at this ⊢
        simp only [List.count_nil] at this ⊢
        omega
  | drop l₁ l₂ p hf hd =>
    simp only [List.map_nil, List.append_nil]
    refine ⟨inv.packets, inv.transport, inv.contents, inv.sound, fun p' hp' => inv.fly p' (mem_of_split hf hp'), inv.busy, inv.quiet, ?_⟩
    intro j
    obtain ⟨l, g1, g2, g3⟩ := inv.seen j
    refine ⟨l, g1, g2, fun x => ?_⟩
    have := g3 x
    rw [hf, flyChat_split, flyChat_single] at this
    show _ + (flyChat _ j (l₁ ++ l₂)).count x + _ = _
    by_cases hj : p.host = j
    · have hlis : listenersOf (n₁.hosts j) p.srv = [] := by
        rw [← listenersOf_congr (inv.transport j)]
        unfold listenersOf
        cases hs : (n.hosts j).threads[p.srv]? with
        | none => rfl
        | some s =>
          simp only []
          cases ht : s.thread with
          | running => exact absurd ⟨s, by rw [hj]; exact hs, ht⟩ hd
          | _ => rfl
      rw [if_pos hj, hlis] at this
      simp only [List.map_nil, List.count_nil] at this
      omega
    · rw [if_neg hj] at this
      simp only [List.count_nil] at this
      omega
  | done l₁ l₂ q hb ht =>
    simp only [List.map_nil, List.append_nil]
    refine ⟨inv.packets, inv.transport, inv.contents, inv.sound, inv.fly, fun q' hq' => inv.busy q' (mem_of_split hb hq'), inv.quiet, ?_⟩
    intro j
    obtain ⟨l, g1, g2, g3⟩ := inv.seen j
    refine ⟨l, g1, g2, fun x => ?_⟩
    have := g3 x
    rw [hb, busyChat_split, busyChat_single, ht] at this
    have he : (if q.host = j then (users []).map (fun k => (k, q.msg.sender, frameOf q.msg)) else []) = ([] : List (Nat × SocketAddr × Frame)) := by
      split <;> rfl
    rw [he, List.count_nil] at this
    show _ + _ + (busyChat j (l₁ ++ l₂)).count x = _
    omega
  | skip l₁ l₂ q o os hb ht hpo hm => rw [inv.sound] at hpo; cases hpo
  | infected l₁ l₂ q o os hb ht hpo => rw [inv.sound] at hpo; cases hpo
  | die l₁ l₂ q o os ev hb ht hpo hu hfree hok hinv =>
    exfalso
    obtain ⟨e, _, ⟨_, _, hresp, h5, _⟩, hc⟩ := inv.busy q (by rw [hb]; simp)
    have he : q.msg.esvByte = e.handed.esvByte := congrArg Frame.esv hc.1
    obtain ⟨h', outs', g, _⟩ := told_invoke (h := n.hosts q.host) hdb hc.2.1 (by rw [he]; exact hresp) (by rw [he]; exact h5) hu o
    rw [hinv] at g; cases g
  | call l₁ l₂ q o os ev h' outs ps hb ht hpo hu hfree hok hinv hps =>
    have hq : q ∈ n.busy := by rw [hb]; simp
    obtain ⟨e, hes, ⟨hg1, hg2, hresp, h5, hg3⟩, hc⟩ := inv.busy q hq
    have he : q.msg.esvByte = e.handed.esvByte := congrArg Frame.esv hc.1
    obtain ⟨h'', outs', g1, g2, g3, g4, g5⟩ := told_invoke (h := n.hosts q.host) hdb hc.2.1 (by rw [he]; exact hresp)
      (by rw [he]; exact h5) hu o
    rw [hinv] at g1
    simp only [Res.ok.injEq, Prod.mk.injEq] at g1
    obtain ⟨rfl, rfl⟩ := g1
    have hnone : ∀ t, Out.tx t ∉ outs := by
      intro t h; have := mem_txs.mp h; rw [g2] at this; simp at this
    have hnil : ps = [] := by
      cases ps with
      | nil => rfl
      | cons p ps =>
        obtain ⟨t, h, _⟩ := hps.1 p List.mem_cons_self
        exact absurd h (hnone t)
    subst hnil
    have hhost : ∀ j, (n.setHost q.host h').hosts j = if j = q.host then h' else n.hosts j := fun j => rfl
    refine ⟨inv.packets, ?_, ?_, inv.sound, ?_, ?_, ?_, ?_⟩
    · intro j
      show ((n.setHost q.host h').hosts j).node.transport = _
      rw [hhost]
      split
      · rename_i hj; rw [g4, hj]; exact inv.transport q.host
      · exact inv.transport j
    · intro j
      show SameContents _ ((n.setHost q.host h').hosts j).node
      rw [hhost]
      split
      · rename_i hj; rw [hj]; exact (inv.contents q.host).trans g3
      · exact inv.contents j
    · intro p hp
      exact inv.fly p (by simpa using hp)
    · intro q' hq'
      rcases List.mem_append.mp hq' with h | h
      · exact inv.busy q' (by rw [hb]; simp [h])
      · rcases List.mem_cons.mp h with rfl | h
        · exact ⟨e, hes, ⟨hg1, hg2, hresp, h5, hg3⟩, hc⟩
        · exact inv.busy q' (by rw [hb]; simp [h])
    · intro c t hx
      rcases List.mem_append.mp hx with hx | hx
      · exact inv.quiet c t hx
      · exact hnone t (mem_map_host.mp hx).2
    · intro j
      obtain ⟨l, k1, k2, k3⟩ := inv.seen j
      show ∃ l, ((n.setHost q.host h').hosts j).seen = _ ∧ _ ∧ ∀ x, _ + (flyChat _ j (n.flying ++ [])).count x +
        (busyChat j (l₁ ++ { q with todo := os } :: l₂)).count x = _
      rw [hhost, List.append_nil]
      by_cases hj : j = q.host
      · refine ⟨l ++ (users [o]).map (fun k => (k, q.msg)), ?_, ?_, fun x => ?_⟩
        · rw [if_pos hj, g5, ← hj, k1, List.append_assoc]
        · intro x hx
          rcases List.mem_append.mp hx with hx | hx
          · exact k2 x hx
          · obtain ⟨k, _, rfl⟩ := List.mem_map.mp hx
            exact ⟨e, hes, ⟨hg1, hg2, hresp, h5, hg3⟩, hc⟩
        · have := k3 x
          rw [hb, busyChat_split, busyChat_single, ht, if_pos hj.symm] at this
          rw [busyChat_split, busyChat_single, if_pos hj.symm]
          rw [show o :: os = [o] ++ os from rfl] at this
          unfold users at this ⊢
          rw [List.filterMap_append, List.map_append, List.count_append] at this
          rw [List.map_append, List.count_append, List.map_map]
          simp only [Function.comp_def]
          omega
      · refine ⟨l, by rw [if_neg hj]; exact k1, k2, fun x => ?_⟩
        have := k3 x
        rw [hb, busyChat_split, busyChat_single, if_neg (fun h => hj h.symm)] at this
        rw [busyChat_split, busyChat_single, if_neg (fun h => hj h.symm)]
        exact this


theorem pktFrame_sent {e : Sending} (h : Chatty e) {p : Packet} (hp : p.bytes = e.handed.bytes) :
    pktFrame p = frameOf e.handed := by
  obtain ⟨q, hq, hc, _⟩ := told_received h.1 h.2.1 h.2.2.2.1 p.src
  unfold pktFrame
  rw [hp, hq]
  exact hc.1

/-- Sending keeps the invariant. -/
theorem chat_publish {b : Build} {db : Database} {n₀ n n' : Net S} {sent : List Sending} {tr : List (Nat × Out)} {i : Nat}
    {op : HostOp S} {m u : Message} {outs : List Out} {ps : List Packet} (inv : ChatInv sent n₀ tr n) (what : Publishes op m)
    (api : Net.Api b db n i op outs n') (format : m.isFormat1 = true) (service : isResponseByte m.esvByte = true)
    (not5E : m.esvByte ≠ 0x5E) (fits : ∀ g v, Out.handed g v ∈ outs → v = u ∧ Fits v)
    (packets : n'.flying = n.flying ++ ps) : ChatInv (sent ++ [⟨m, u, ps⟩]) n₀ tr n' := by
  obtain ⟨s1, s2, s3, s4, _⟩ := publishes_start what api
  have hps : ∀ p ∈ ps, ∃ t, Out.tx t ∈ outs ∧ p.bytes = t.bytes := by
    cases api with
    | mk h' _ qs ha hs hqs =>
      have : qs = ps := List.append_cancel_left packets
      subst this
      intro p hp
      obtain ⟨t, h1, h2, _⟩ := hqs p hp
      exact ⟨t, h1, h2⟩
  obtain ⟨u1, u2⟩ := updateTid_sent (n.hosts i).node m
  obtain ⟨_, _, u3, _, _, _, u4, _⟩ := updateTid_fields (n.hosts i).node m
  have hnew : ∀ p ∈ ps, Chatty ⟨m, u, ps⟩ ∧ p.bytes = u.bytes := by
    intro p hp
    obtain ⟨t, h1, h2⟩ := hps p hp
    rcases s1 with h | ⟨g, hg⟩
    · rw [h] at h1; simp at h1
    · obtain ⟨e, hf⟩ := fits g _ hg
      have hb := s2 t h1
      rw [e] at u1 u2 u3 u4 hf hb
      exact ⟨⟨hf, by rw [u4]; exact format, by rw [u3]; exact service, by rw [u3]; exact not5E, u1, u2⟩, by rw [h2, hb]⟩
  refine ⟨?_, ?_, ?_, by rw [s4]; exact inv.sound, ?_, ?_, inv.quiet, ?_⟩
  · intro e he p hp
    rcases List.mem_append.mp he with he | he
    · exact inv.packets e he p hp
    · rw [List.mem_singleton.mp he] at hp ⊢
      exact hnew p hp
  · intro j
    rw [(publishes_others what api j).2.1]; exact inv.transport j
  · intro j
    exact (inv.contents j).trans (publishes_others what api j).2.2
  · intro p hp
    rw [packets] at hp
    rcases List.mem_append.mp hp with hp | hp
    · obtain ⟨e, he, h⟩ := inv.fly p hp
      exact ⟨e, by simp [he], h⟩
    · exact ⟨⟨m, u, ps⟩, by simp, hnew p hp⟩
  · intro q hq
    rw [s3] at hq
    obtain ⟨e, he, h⟩ := inv.busy q hq
    exact ⟨e, by simp [he], h⟩
  · intro j
    obtain ⟨l, g1, g2, g3⟩ := inv.seen j
    refine ⟨l, by rw [(publishes_others what api j).1]; exact g1, ?_, fun x => ?_⟩
    · intro x hx
      obtain ⟨e, he, h⟩ := g2 x hx
      exact ⟨e, by simp [he], h⟩
    · have := g3 x
      rw [s3, packets, List.flatMap_append, flyChat_append, flyChat_append, List.count_append, List.count_append]
      simp only [List.flatMap_cons, List.flatMap_nil, List.append_nil]
      omega

theorem chat_run {b : Build} {ω₀ : HashOrder} {db : Database} (hdb : standardDb b ω₀ = .ok db) {own : IpAddr → Option Nat}
    {n₀ n : Net S} {sent : List Sending} {tr : List (Nat × Out)} (h : Chatter b db own n₀ sent tr n) :
    ChatInv sent n₀ tr n := by
  induction h with
  | start flying busy sound =>
    refine ⟨by simp, fun _ => rfl, fun _ => ⟨rfl, rfl, rfl⟩, sound, by rw [flying]; simp, by rw [busy]; simp, by simp, ?_⟩
    intro j
    refine ⟨[], by simp, by simp, fun x => ?_⟩
    rw [flying, busy]
    simp [flyChat, busyChat]
  | publish _ what api format service not5E fits packets ih => exact chat_publish ih what api format service not5E fits packets
  | internal _ step ih => exact chat_step hdb ih step

theorem allToTell_eq (n₀ : Net S) (j : Nat) (sent : List Sending)
    (h : ∀ e ∈ sent, ∀ p ∈ e.packets, pktFrame p = frameOf e.handed) :
    allToTell n₀ j sent = flyChat (n₀.hosts j) j (sent.flatMap Sending.packets) := by
  unfold allToTell
  induction sent with
  | nil => rfl
  | cons e sent ih =>
    rw [List.flatMap_cons, List.flatMap_cons, flyChat_append, ih (fun e' he' => h e' (by simp [he']))]
    congr 1
    have he := h e (by simp)
    generalize e.packets = l at he
    induction l with
    | nil => rfl
    | cons p l ih' =>
      unfold flyChat
      rw [List.flatMap_cons]
      have := ih' (fun p hp => he p (by simp [hp]))
      unfold flyChat at this
      rw [← this]
      by_cases hj : p.host = j
      · rw [List.filter_cons_of_pos (by simp [hj]), List.flatMap_cons, if_pos hj, he p (by simp)]
      · rw [List.filter_cons_of_neg (by simp [hj]), if_neg hj]; rfl

/-! ## C100 -/

/-- C100: any number of notifications and other responses that applications of any hosts send out at any time, one after the
other or at once, between any two steps of the receiver threads: whenever the network is at rest again, at every host each
observer of the application has been called exactly once for each copy of each message delivered to a running thread it is
registered with (and each registration), with the content of that message and the address the copy came from, and for nothing
else. -/
theorem C100_chatter (b : Build) (ω₀ : HashOrder) (db : Database) (hdb : standardDb b ω₀ = .ok db) (own : IpAddr → Option Nat)
    (n₀ n : Net S) (sent : List Sending) (tr : List (Nat × Out)) (hrun : Chatter b db own n₀ sent tr n)
    (hend : n.flying = [] ∧ n.busy = []) (j : Nat) :
    ∃ l, (n.hosts j).seen = (n₀.hosts j).seen ++ l ∧ (∀ x ∈ l, ∃ e ∈ sent, SentAs e.message x.2) ∧
      (l.map (fun x => (x.1, x.2.sender, frameOf x.2))).Perm (allToTell n₀ j sent) := by
  have inv := chat_run hdb hrun
  obtain ⟨l, g1, g2, g3⟩ := inv.seen j
  refine ⟨l, g1, ?_, ?_⟩
  · intro x hx
    obtain ⟨e, he, ⟨_, _, _, _, r1, r2⟩, k1, _, k2, k3⟩ := g2 x hx
    have ht : x.2.tid = e.handed.tid := UInt16.toNat.inj (congrArg Frame.tid k1)
    have hv : e.handed.esvByte = e.message.esvByte := congrArg Frame.esv r1
    rw [hv] at k2 k3
    exact ⟨e, he, by rw [k1, r1, ht], fun h => by rw [ht]; exact r2 h, k2, k3⟩
  · rw [List.perm_iff_count]
    intro x
    have := g3 x
    rw [hend.1, hend.2] at this
    rw [allToTell_eq n₀ j sent (fun e he p hp => pktFrame_sent (inv.packets e he p hp).1 (inv.packets e he p hp).2), ← this]
    simp [flyChat, busyChat]

/-- C100, at any time, also while messages are under way: nobody has put out a datagram in reaction to them, no object, request
handler or state of a handler of any node has changed, no observer has panicked, every node has kept its sockets and
registrations, and no observer of an application has been called more often than it had to be. -/
theorem C100_harmless (b : Build) (ω₀ : HashOrder) (db : Database) (hdb : standardDb b ω₀ = .ok db) (own : IpAddr → Option Nat)
    (n₀ n : Net S) (sent : List Sending) (tr : List (Nat × Out)) (hrun : Chatter b db own n₀ sent tr n) :
    (∀ k t, (k, Out.tx t) ∉ tr) ∧ (∀ k o, n.poisoned k o = false) ∧
    ∀ j, SameContents (n₀.hosts j).node (n.hosts j).node ∧ (n.hosts j).node.transport = (n₀.hosts j).node.transport ∧
      ∃ l, (n.hosts j).seen = (n₀.hosts j).seen ++ l ∧
        ∀ x, (l.map (fun x => (x.1, x.2.sender, frameOf x.2))).count x ≤ (allToTell n₀ j sent).count x := by
  have inv := chat_run hdb hrun
  refine ⟨inv.quiet, inv.sound, fun j => ⟨inv.contents j, inv.transport j, ?_⟩⟩
  obtain ⟨l, g1, _, g3⟩ := inv.seen j
  refine ⟨l, g1, fun x => ?_⟩
  rw [allToTell_eq n₀ j sent (fun e he p hp => pktFrame_sent (inv.packets e he p hp).1 (inv.packets e he p hp).2), ← g3 x]
  omega

theorem chatter_prompt {b : Build} {db : Database} {own : IpAddr → Option Nat} {n₀ n n' : Net S} {sent : List Sending}
    {tr tr' : List (Nat × Out)} (h : Chatter b db own n₀ sent tr n) (h' : Prompt b db own n tr' n') :
    Chatter b db own n₀ sent (tr ++ tr') n' := by
  induction h' with
  | refl => simpa using h
  | step _ h' _ ih => rw [← List.append_assoc]; exact .internal ih h'

/-- Another notification. -/
def exInform₂ : Message := (exPost .Notification).addProperty ⟨0xB0, [0x43]⟩

theorem ex_sends {b : Build} {db : Database} {n : Net Nat} (k : Node Nat) (rs : List RemoteNode) (sn : List (Nat × Message))
    (hk : n.hosts 0 = ⟨k, rs, sn⟩) (htr : k.transport = exCaller.transport) (m : Message) (ps : List Packet)
    (hps : ∀ p ∈ ps, p.bytes = (k.updateTid m).1.bytes ∧ p.src = ⟨.v4 0xC0A80001, 3610⟩) :
    ∃ outs, Net.Api b db n 0 (.node (.send ⟨.v4 0xC0A80002, 3610⟩ m allOk)) outs
      { n.setHost 0 ⟨(k.updateTid m).2, rs, sn⟩ with flying := n.flying ++ ps } ∧
      ∀ g v, Out.handed g v ∈ outs → v = (k.updateTid m).1 := by
  let t : Tx := ⟨.v4 0xC0A80001, ⟨.v4 0xC0A80002, 3610⟩, (k.updateTid m).1.bytes⟩
  have hstep : (n.hosts 0).step b db (.node (.send ⟨.v4 0xC0A80002, 3610⟩ m allOk)) =
      .ok (⟨(k.updateTid m).2, rs, sn⟩, [.handed m (k.updateTid m).1, .tx t]) := by
    have h1 : ((k.updateTid m).2.transport.send allOk ⟨.v4 0xC0A80002, 3610⟩ (k.updateTid m).1).2 = [t] := by
      rw [Node.updateTid_transport, htr]; rfl
    rw [hk]
    simp only [Host.step, Node.step, Node.sendMessage, h1, Res.bind_ok, Res.pure_eq, List.map_cons, List.map_nil]
  exact ⟨_, .mk _ _ ps trivial hstep (fun p hp => ⟨t, by simp, (hps p hp).1, by rw [(hps p hp).2]⟩), by
    intro g v hv
    simp only [List.mem_cons, Out.handed.injEq, reduceCtorEq, List.not_mem_nil, or_false] at hv
    exact hv.2⟩

/-- Non-vacuity of `C100_chatter`: host 0 sends a notification, of which the network delivers two copies to host 1, and right
away another one, of which one copy arrives; the network comes to rest, and the observer of the application at host 1 has been
called three times, twice with the content of the one and once with that of the other. -/
example : ∃ (db : Database) (n₀ n : Net Nat) (sent : List Sending) (tr : List (Nat × Out)),
    standardDb .dev .ascending = .ok db ∧ Chatter .dev db exOwn n₀ sent tr n ∧ (n.flying = [] ∧ n.busy = []) ∧
    sent.map Sending.message = [exInform, exInform₂] ∧
    ((n.hosts 1).seen.map (fun x => (x.1, x.2.sender, x.2.properties))).Perm
      [(7, ⟨.v4 0xC0A80001, 3610⟩, [⟨0xB0, [0x42]⟩]), (7, ⟨.v4 0xC0A80001, 3610⟩, [⟨0xB0, [0x42]⟩]),
        (7, ⟨.v4 0xC0A80001, 3610⟩, [⟨0xB0, [0x43]⟩])] := by
  obtain ⟨db, hdb, _⟩ := C21_builds .dev .ascending
  let a := exCaller
  let u := (a.updateTid exInform).1
  let a' := (a.updateTid exInform).2
  let u' := (a'.updateTid exInform₂).1
  let p : Packet := ⟨⟨.v4 0xC0A80001, 3610⟩, 1, 0, u.bytes⟩
  let p' : Packet := ⟨⟨.v4 0xC0A80001, 3610⟩, 1, 0, u'.bytes⟩
  obtain ⟨o₁, api₁, hh₁⟩ := ex_sends (b := .dev) (db := db) (n := exHosts a exListener) a [] [] rfl rfl exInform [p, p] (by
    intro q hq
    have hq : q = p := by simpa using hq
    rw [hq]; exact ⟨rfl, rfl⟩)
  have c₁ : Chatter .dev db exOwn (exHosts a exListener) ([] ++ [⟨exInform, u, [p, p]⟩]) [] _ :=
    .publish (.start rfl rfl (fun _ _ => rfl)) (.nodeSend _ _ _) api₁ (by decide +kernel) (by decide +kernel) (by decide +kernel)
      (by intro g v hv; rw [hh₁ g v hv]; exact ⟨rfl, by unfold Fits; decide +kernel⟩) rfl
  obtain ⟨o₂, api₂, hh₂⟩ := ex_sends (b := .dev) (db := db) (n := { (exHosts a exListener).setHost 0 ⟨a', [], []⟩ with flying := [] ++ [p, p] })
    a' [] [] rfl (Node.updateTid_transport _ _) exInform₂ [p'] (by
      intro q hq
      rw [List.mem_singleton.mp hq]; exact ⟨rfl, rfl⟩)
  have c₂ : Chatter .dev db exOwn (exHosts a exListener) (([] ++ [⟨exInform, u, [p, p]⟩]) ++ [⟨exInform₂, u', [p']⟩]) [] _ :=
    .publish c₁ (.nodeSend _ _ _) api₂ (by decide +kernel) (by decide +kernel) (by decide +kernel)
      (by intro g v hv; rw [hh₂ g v hv]; exact ⟨rfl, by unfold Fits; decide +kernel⟩) rfl
  obtain ⟨tr, n, hrun, hend⟩ := (C84_progress (S := Nat) .dev db exOwn).2.2 _
  have c₃ := chatter_prompt c₂ hrun
  refine ⟨db, _, n, _, _, hdb, c₃, hend, rfl, ?_⟩
  obtain ⟨l, h1, h2, h3⟩ := C100_chatter .dev .ascending db hdb exOwn _ n _ _ c₃ hend 1
  rw [h1, List.map_append]
  let f : Nat × SocketAddr × Frame → Nat × SocketAddr × List WProperty := fun x =>
    (x.1, x.2.1, match x.2.2.body with | .single ps => ps | .setGet _ _ => [])
  have h4 := h3.map f
  rw [List.map_map] at h4
  have h5 : l.map (fun x => (x.1, x.2.sender, x.2.properties)) = l.map (f ∘ fun x => (x.1, x.2.sender, frameOf x.2)) := by
    apply List.map_congr_left
    intro x hx
    obtain ⟨e, he, hs⟩ := h2 x hx
    have hv : isWriteReadByte x.2.esvByte = false := by
      have h := congrArg Frame.esv hs.frame
      have h : x.2.esvByte = e.message.esvByte := h
      rw [h]
      simp only [List.nil_append, List.cons_append, List.mem_cons, List.not_mem_nil, or_false] at he
      rcases he with rfl | rfl <;> decide +kernel
    simp only [Function.comp, f, frameOf, hv, Bool.false_eq_true, if_false]
  rw [show ((exHosts a exListener).hosts 1).seen.map (fun x => (x.1, x.2.sender, x.2.properties)) = [] from rfl, List.nil_append, h5]
  refine h4.trans ?_
  have h6 : (allToTell (exHosts a exListener) 1 (([] ++ [⟨exInform, u, [p, p]⟩]) ++ [⟨exInform₂, u', [p']⟩])).map f =
      [(7, ⟨.v4 0xC0A80001, 3610⟩, [⟨0xB0, [0x42]⟩]), (7, ⟨.v4 0xC0A80001, 3610⟩, [⟨0xB0, [0x42]⟩]),
        (7, ⟨.v4 0xC0A80001, 3610⟩, [⟨0xB0, [0x43]⟩])] := by
    decide +kernel
  rw [h6]

end Uecho
