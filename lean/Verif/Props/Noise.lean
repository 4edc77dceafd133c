import Verif.Props.Chorus
/-!
# Notifications in all executions: C100 and C101 without assumptions on the network and on the threads
-/
namespace Uecho
open Spec
variable {S : Type}

structure NoiseInv (sent : List Sending) (n₁ : Net S) (tr : List (Nat × Out)) (n : Net S) : Prop where
  packets : ∀ e ∈ sent, ∀ p ∈ e.packets, Chatty e ∧ p.bytes = e.handed.bytes
  transport : ∀ j, (n.hosts j).node.transport = (n₁.hosts j).node.transport
  contents : ∀ j, SameContents (n₁.hosts j).node (n.hosts j).node
  wild : ∀ i, n.wild i = false
  sound : ∀ j o, n.poisoned j o = false
  fly : ∀ p ∈ n.flying, ∃ e ∈ sent, Chatty e ∧ p.bytes = e.handed.bytes
  busy : ∀ q ∈ n.busy, ∃ e ∈ sent, Chatty e ∧ ToldCopy e.handed q.msg
  quiet : ∀ k t, (k, Out.tx t) ∉ tr
  seen : ∀ j, ∃ l, (n.hosts j).seen = (n₁.hosts j).seen ++ l ∧ (∀ x ∈ l, ∃ e ∈ sent, Chatty e ∧ ToldCopy e.handed x.2) ∧
    ∀ x, (l.map (fun y => (y.1, y.2.sender, frameOf y.2))).count x + (flyChat (n₁.hosts j) j n.flying).count x +
      (busyChat j n.busy).count x ≤ (flyChat (n₁.hosts j) j (sent.flatMap Sending.packets)).count x

theorem noise_step {b : Build} {ω₀ : HashOrder} {db : Database} (hdb : standardDb b ω₀ = .ok db)
    {sent : List Sending} {n₁ n n' : Net S} {tr : List (Nat × Out)} {k : Nat} {outs : List Out}
    (inv : NoiseInv sent n₁ tr n) (h : Net.Internal b db n k outs n') :
    NoiseInv sent n₁ (tr ++ outs.map (fun o => (k, o))) n' := by
  cases h with
  | receive l₁ l₂ p s hf hs hrun hidle =>
    have hp : p ∈ n.flying := by rw [hf]; simp
    obtain ⟨e, he, hgood, hbytes⟩ := inv.fly p hp
    obtain ⟨q, hq, hc, hsrc⟩ := told_received hgood.1 hgood.2.1 hgood.2.2.2.1 p.src
    rw [← hbytes] at hq
    have hpf : pktFrame p = frameOf q := by unfold pktFrame; rw [hq]
    have hx : n.received p s (l₁ ++ l₂) =
        { n with flying := l₁ ++ l₂, busy := n.busy ++ [⟨p.host, p.srv, q, s.observers⟩] } := by
      unfold Net.received; rw [hq]
    rw [hx]
    simp only [List.map_nil, List.append_nil]
    refine ⟨inv.packets, inv.transport, inv.contents, inv.wild, inv.sound, fun p' hp' => inv.fly p' (mem_of_split hf hp'), ?_, inv.quiet, ?_⟩
    · intro q' hq'
      rcases List.mem_append.mp hq' with hq' | hq'
      · exact inv.busy q' hq'
      · rw [List.mem_singleton.mp hq']; exact ⟨e, he, hgood, hc⟩
    · intro j
      obtain ⟨l, g1, g2, g3⟩ := inv.seen j
      refine ⟨l, g1, g2, fun x => ?_⟩
      have := g3 x
      rw [hf, flyChat_split, flyChat_single] at this
      have hb := busyChat_split j n.busy [] ⟨p.host, p.srv, q, s.observers⟩ x
      rw [List.append_nil, busyChat_single] at hb
      show _ + (flyChat _ j (l₁ ++ l₂)).count x + (busyChat j (n.busy ++ [⟨p.host, p.srv, q, s.observers⟩])).count x ≤ _
      rw [hb]
      simp only []
      by_cases hj : p.host = j
      · have hlis : listenersOf (n₁.hosts j) p.srv = users s.observers := by
          rw [← listenersOf_congr (inv.transport j)]
          unfold listenersOf
          rw [← hj, hs]
          simp only [hrun]
        rw [if_pos hj, hlis] at this
        rw [if_pos hj, hsrc, ← hpf]
        omega
      · rw [if_neg hj] at this ⊢
        simp only [List.count_nil] at this ⊢
        omega
  | lose l₁ l₂ p hf =>
    simp only [List.map_nil, List.append_nil]
    refine ⟨inv.packets, inv.transport, inv.contents, inv.wild, inv.sound, fun p' hp' => inv.fly p' (mem_of_split hf hp'), inv.busy, inv.quiet, ?_⟩
    intro j
    obtain ⟨l, g1, g2, g3⟩ := inv.seen j
    refine ⟨l, g1, g2, fun x => ?_⟩
    have := g3 x
    rw [hf, flyChat_split] at this
    show _ + (flyChat _ j (l₁ ++ l₂)).count x + (busyChat j n.busy).count x ≤ _
    omega
  | done l₁ l₂ q hb ht =>
    simp only [List.map_nil, List.append_nil]
    refine ⟨inv.packets, inv.transport, inv.contents, inv.wild, inv.sound, inv.fly, fun q' hq' => inv.busy q' (mem_of_split hb hq'), inv.quiet, ?_⟩
    intro j
    obtain ⟨l, g1, g2, g3⟩ := inv.seen j
    refine ⟨l, g1, g2, fun x => ?_⟩
    have := g3 x
    rw [hb, busyChat_split, busyChat_single, ht] at this
    have he : (if q.host = j then (users []).map (fun k => (k, q.msg.sender, frameOf q.msg)) else []) = ([] : List (Nat × SocketAddr × Frame)) := by
      split <;> rfl
    rw [he, List.count_nil] at this
    show _ + _ + (busyChat j (l₁ ++ l₂)).count x ≤ _
    omega
  | crash l₁ l₂ q o os h' hb ht hpo hw ha => rw [inv.wild] at hw; cases hw
  | skip l₁ l₂ q o os hb ht hpo hm => rw [inv.sound] at hpo; cases hpo
  | infected l₁ l₂ q o os hb ht hpo => rw [inv.sound] at hpo; cases hpo
  | die l₁ l₂ q o os ev hb ht hpo hu hinv =>
    exfalso
    obtain ⟨e, _, ⟨_, _, hresp, h5, _⟩, hc⟩ := inv.busy q (by rw [hb]; simp)
    have he : q.msg.esvByte = e.handed.esvByte := congrArg Frame.esv hc.1
    obtain ⟨h', outs', g, _⟩ := told_invoke (h := n.hosts q.host) hdb hc.2.1 (by rw [he]; exact hresp) (by rw [he]; exact h5) hu o
    rw [hinv] at g; cases g
  | call l₁ l₂ q o os ev h' outs ps hb ht hpo hu hinv hps =>
    have hq : q ∈ n.busy := by rw [hb]; simp
    obtain ⟨e, hes, ⟨hg1, hg2, hresp, h5, hg3⟩, hc⟩ := inv.busy q hq
    have he : q.msg.esvByte = e.handed.esvByte := congrArg Frame.esv hc.1
    obtain ⟨h'', outs', g1, g2, g3, g4, g5⟩ := told_invoke (h := n.hosts q.host) hdb hc.2.1 (by rw [he]; exact hresp)
      (by rw [he]; exact h5) hu o
    rw [hinv] at g1
    simp only [Res.ok.injEq, Prod.mk.injEq] at g1
    obtain ⟨rfl, rfl⟩ := g1
    have hnone : ∀ t, Out.tx t ∉ outs := by
      intro t h; have := mem_txs.mp h; rw [g2] at this; simp at this
    have hnil : ps = [] := by
      cases ps with
      | nil => rfl
      | cons p ps =>
        obtain ⟨t, h, _⟩ := hps p List.mem_cons_self
        exact absurd h (hnone t)
    subst hnil
    have hhost : ∀ j, (n.setHost q.host h').hosts j = if j = q.host then h' else n.hosts j := fun j => rfl
    refine ⟨inv.packets, ?_, ?_, inv.wild, inv.sound, ?_, ?_, ?_, ?_⟩
    · intro j
      show ((n.setHost q.host h').hosts j).node.transport = _
      rw [hhost]
      split
      · rename_i hj; rw [g4, hj]; exact inv.transport q.host
      · exact inv.transport j
    · intro j
      show SameContents _ ((n.setHost q.host h').hosts j).node
      rw [hhost]
      split
      · rename_i hj; rw [hj]; exact (inv.contents q.host).trans g3
      · exact inv.contents j
    · intro p hp
      exact inv.fly p (by simpa using hp)
    · intro q' hq'
      rcases List.mem_append.mp hq' with h | h
      · exact inv.busy q' (by rw [hb]; simp [h])
      · rcases List.mem_cons.mp h with rfl | h
        · exact ⟨e, hes, ⟨hg1, hg2, hresp, h5, hg3⟩, hc⟩
        · exact inv.busy q' (by rw [hb]; simp [h])
    · intro c t hx
      rcases List.mem_append.mp hx with hx | hx
      · exact inv.quiet c t hx
      · exact hnone t (mem_map_host.mp hx).2
    · intro j
      obtain ⟨l, k1, k2, k3⟩ := inv.seen j
      show ∃ l, ((n.setHost q.host h').hosts j).seen = _ ∧ _ ∧ ∀ x, _ + (flyChat _ j (n.flying ++ [])).count x +
        (busyChat j (l₁ ++ { q with todo := os } :: l₂)).count x ≤ _
      rw [hhost, List.append_nil]
      by_cases hj : j = q.host
      · refine ⟨l ++ (users [o]).map (fun k => (k, q.msg)), ?_, ?_, fun x => ?_⟩
        · rw [if_pos hj, g5, ← hj, k1, List.append_assoc]
        · intro x hx
          rcases List.mem_append.mp hx with hx | hx
          · exact k2 x hx
          · obtain ⟨k, _, rfl⟩ := List.mem_map.mp hx
            exact ⟨e, hes, ⟨hg1, hg2, hresp, h5, hg3⟩, hc⟩
        · have := k3 x
          rw [hb, busyChat_split, busyChat_single, ht, if_pos hj.symm] at this
          rw [busyChat_split, busyChat_single, if_pos hj.symm]
          rw [show o :: os = [o] ++ os from rfl] at this
          unfold users at this ⊢
          rw [List.filterMap_append, List.map_append, List.count_append] at this
          rw [List.map_append, List.count_append, List.map_map]
          simp only [Function.comp_def]
          omega
      · refine ⟨l, by rw [if_neg hj]; exact k1, k2, fun x => ?_⟩
        have := k3 x
        rw [hb, busyChat_split, busyChat_single, if_neg (fun h => hj h.symm)] at this
        rw [busyChat_split, busyChat_single, if_neg (fun h => hj h.symm)]
        exact this


theorem noise_publish {b : Build} {db : Database} {n₀ n n' : Net S} {sent : List Sending} {tr : List (Nat × Out)} {i : Nat}
    {op : HostOp S} {m u : Message} {outs : List Out} {ps : List Packet} (inv : NoiseInv sent n₀ tr n) (what : Publishes op m)
    (api : Net.Api b db n i op outs n') (format : m.isFormat1 = true) (service : isResponseByte m.esvByte = true)
    (not5E : m.esvByte ≠ 0x5E) (fits : ∀ g v, Out.handed g v ∈ outs → v = u ∧ Fits v)
    (packets : n'.flying = n.flying ++ ps) : NoiseInv (sent ++ [⟨m, u, ps⟩]) n₀ tr n' := by
  obtain ⟨s1, s2, s3, s4, _⟩ := publishes_start what api
  have hps : ∀ p ∈ ps, ∃ t, Out.tx t ∈ outs ∧ p.bytes = t.bytes := by
    cases api with
    | mk h' _ qs ha hs hqs =>
      have : qs = ps := List.append_cancel_left packets
      subst this
      intro p hp
      obtain ⟨t, h1, h2, _⟩ := hqs p hp
      exact ⟨t, h1, h2⟩
  obtain ⟨u1, u2⟩ := updateTid_sent (n.hosts i).node m
  obtain ⟨_, _, u3, _, _, _, u4, _⟩ := updateTid_fields (n.hosts i).node m
  have hnew : ∀ p ∈ ps, Chatty ⟨m, u, ps⟩ ∧ p.bytes = u.bytes := by
    intro p hp
    obtain ⟨t, h1, h2⟩ := hps p hp
    rcases s1 with h | ⟨g, hg⟩
    · rw [h] at h1; simp at h1
    · obtain ⟨e, hf⟩ := fits g _ hg
      have hb := s2 t h1
      rw [e] at u1 u2 u3 u4 hf hb
      exact ⟨⟨hf, by rw [u4]; exact format, by rw [u3]; exact service, by rw [u3]; exact not5E, u1, u2⟩, by rw [h2, hb]⟩
  refine ⟨?_, ?_, ?_, ?_, by rw [s4]; exact inv.sound, ?_, ?_, inv.quiet, ?_⟩
  · intro e he p hp
    rcases List.mem_append.mp he with he | he
    · exact inv.packets e he p hp
    · rw [List.mem_singleton.mp he] at hp ⊢
      exact hnew p hp
  · intro j
    rw [(publishes_others what api j).2.1]; exact inv.transport j
  · intro j
    exact (inv.contents j).trans (publishes_others what api j).2.2
  · intro j
    cases api with
    | mk h' _ qs ha hs hqs => exact inv.wild j
  · intro p hp
    rw [packets] at hp
    rcases List.mem_append.mp hp with hp | hp
    · obtain ⟨e, he, h⟩ := inv.fly p hp
      exact ⟨e, by simp [he], h⟩
    · exact ⟨⟨m, u, ps⟩, by simp, hnew p hp⟩
  · intro q hq
    rw [s3] at hq
    obtain ⟨e, he, h⟩ := inv.busy q hq
    exact ⟨e, by simp [he], h⟩
  · intro j
    obtain ⟨l, g1, g2, g3⟩ := inv.seen j
    refine ⟨l, by rw [(publishes_others what api j).1]; exact g1, ?_, fun x => ?_⟩
    · intro x hx
      obtain ⟨e, he, h⟩ := g2 x hx
      exact ⟨e, by simp [he], h⟩
    · have := g3 x
      rw [s3, packets, List.flatMap_append, flyChat_append, flyChat_append, List.count_append, List.count_append]
      simp only [List.flatMap_cons, List.flatMap_nil, List.append_nil]
      omega

theorem noise_run {b : Build} {ω₀ : HashOrder} {db : Database} (hdb : standardDb b ω₀ = .ok db)
    {n₀ n : Net S} {sent : List Sending} {tr : List (Nat × Out)} (h : Noise b db n₀ sent tr n) :
    NoiseInv sent n₀ tr n := by
  induction h with
  | start flying busy sound tame =>
    refine ⟨by simp, fun _ => rfl, fun _ => ⟨rfl, rfl, rfl⟩, tame, sound, by rw [flying]; simp, by rw [busy]; simp, by simp, ?_⟩
    intro j
    refine ⟨[], by simp, by simp, fun x => ?_⟩
    rw [flying, busy]
    simp [flyChat, busyChat]
  | publish _ what api format service not5E fits packets ih => exact noise_publish ih what api format service not5E fits packets
  | internal _ step ih => exact noise_step hdb ih step

structure NoiseKnown (sent : List Sending) (n₀ n : Net S) : Prop where
  lists : ∀ j, ∃ l, (n.hosts j).remotes =
      (n₀.hosts j).remotes.filter (fun r => decide (r.addr ∉ l.map RemoteNode.addr)) ++ l ∧
    (l.map RemoteNode.addr).Nodup ∧
    (∀ r ∈ l, ∃ e, HeardFrom n₀ sent j r.addr e ∧
      r.objects.map (fun o => o.code.toNat) = announcedCodes e.message ++ [0x0EF001])
  fly : ∀ p ∈ n.flying, ∃ e ∈ sent, p ∈ e.packets
  busy : ∀ q ∈ n.busy, ObserverRef.controller ∈ q.todo → ∃ e ∈ sent, Chatty e ∧ ToldCopy e.handed q.msg ∧
    ∃ p ∈ e.packets, p.host = q.host ∧ p.src = q.msg.sender ∧ ControllerAt n₀ q.host p.srv

theorem noiseKnown_step {b : Build} {ω₀ : HashOrder} {db : Database} (hdb : standardDb b ω₀ = .ok db)
    {sent : List Sending} {n₀ n n' : Net S} {tr : List (Nat × Out)} {k : Nat} {outs : List Out}
    (hnd : ∀ j, ((n₀.hosts j).remotes.map RemoteNode.addr).Nodup)
    (inv : NoiseInv sent n₀ tr n) (kn : NoiseKnown sent n₀ n) (h : Net.Internal b db n k outs n') : NoiseKnown sent n₀ n' := by
  have hthr : ∀ j, (n.hosts j).threads = (n₀.hosts j).threads := by
    intro j; unfold Host.threads; rw [inv.transport j]
  cases h with
  | receive l₁ l₂ p s hf hs hrun hidle =>
    have hp : p ∈ n.flying := by rw [hf]; simp
    obtain ⟨e, he, hpe⟩ := kn.fly p hp
    obtain ⟨hgood, hbytes⟩ := inv.packets e he p hpe
    obtain ⟨q, hq, hc, hsrc⟩ := told_received hgood.1 hgood.2.1 hgood.2.2.2.1 p.src
    rw [← hbytes] at hq
    have hx : n.received p s (l₁ ++ l₂) =
        { n with flying := l₁ ++ l₂, busy := n.busy ++ [⟨p.host, p.srv, q, s.observers⟩] } := by
      unfold Net.received; rw [hq]
    rw [hx]
    refine ⟨kn.lists, fun p' hp' => kn.fly p' (mem_of_split hf hp'), ?_⟩
    · intro q' hq' hc'
      rcases List.mem_append.mp hq' with hq' | hq'
      · exact kn.busy q' hq' hc'
      · rw [List.mem_singleton.mp hq'] at hc' ⊢
        exact ⟨e, he, hgood, hc, p, hpe, rfl, hsrc.symm, s, by rw [← hthr]; exact hs, hrun, hc'⟩
  | lose l₁ l₂ p hf => exact ⟨kn.lists, fun p' hp' => kn.fly p' (mem_of_split hf hp'), kn.busy⟩
  | done l₁ l₂ q hb ht => exact ⟨kn.lists, kn.fly, fun q' hq' => kn.busy q' (mem_of_split hb hq')⟩
  | crash l₁ l₂ q o os h' hb ht hpo hw ha => rw [inv.wild] at hw; cases hw
  | skip l₁ l₂ q o os hb ht hpo hm => rw [inv.sound] at hpo; cases hpo
  | infected l₁ l₂ q o os hb ht hpo => rw [inv.sound] at hpo; cases hpo
  | die l₁ l₂ q o os ev hb ht hpo hu hinv =>
    exfalso
    obtain ⟨e, _, ⟨_, _, hresp, h5, _⟩, hc⟩ := inv.busy q (by rw [hb]; simp)
    have he : q.msg.esvByte = e.handed.esvByte := congrArg Frame.esv hc.1
    obtain ⟨h', outs', g, _⟩ := told_invoke (h := n.hosts q.host) hdb hc.2.1 (by rw [he]; exact hresp) (by rw [he]; exact h5) hu o
    rw [hinv] at g; cases g
  | call l₁ l₂ q o os ev h' outs ps hb ht hpo hu hinv hps =>
    have hq : q ∈ n.busy := by rw [hb]; simp
    obtain ⟨e₀, _, ⟨_, _, hresp, h5, _⟩, hc₀⟩ := inv.busy q hq
    have he₀ : q.msg.esvByte = e₀.handed.esvByte := congrArg Frame.esv hc₀.1
    obtain ⟨h'', outs', g1, g2, _, _, _⟩ := told_invoke (h := n.hosts q.host) hdb hc₀.2.1 (by rw [he₀]; exact hresp)
      (by rw [he₀]; exact h5) hu o
    rw [hinv] at g1
    simp only [Res.ok.injEq, Prod.mk.injEq] at g1
    obtain ⟨rfl, rfl⟩ := g1
    have hnil : ps = [] := by
      cases ps with
      | nil => rfl
      | cons p ps =>
        obtain ⟨t, h, _⟩ := hps p List.mem_cons_self
        have := mem_txs.mp h; rw [g2] at this; simp at this
    subst hnil
    rw [List.append_nil]
    have hhost : ∀ j, (n.setHost q.host h').hosts j = if j = q.host then h' else n.hosts j := fun j => rfl
    refine ⟨fun j => ?_, kn.fly, ?_⟩
    · obtain ⟨l, e1, e2, e3⟩ := kn.lists j
      show ∃ l, ((n.setHost q.host h').hosts j).remotes = _ ∧ _
      rw [hhost]
      by_cases hj : j = q.host
      · rw [if_pos hj]
        by_cases ho : (o = .controller ∧ ev.ctrlFree = true) ∧ IsProfileMessage q.msg
        · obtain ⟨⟨ho, hfree⟩, hpm⟩ := ho
          subst ho
          obtain ⟨e, hes, hgood, hc, p, p1, p2, p3, p4⟩ := kn.busy q hq (by rw [ht]; exact List.mem_cons_self)
          obtain ⟨c1, c2⟩ := chatty_profile hgood hc
          have hem := c1.mp hpm
          obtain ⟨r, r1, r2, _⟩ := observeController_profile hdb ev.ω ev.uuid hu (n.hosts q.host).remotes hpm
          have hrem : h'.remotes = replaceRemoteNode (n.hosts q.host).remotes r := by
            simp only [Host.invoke, hfree, r1, Res.bind_ok, Res.pure_eq, Res.ok.injEq, Prod.mk.injEq] at hinv
            rw [← hinv.1]
          have ra : r.addr = q.msg.sender := congrArg Prod.fst r2
          have rc : r.objects.map (fun o => o.code.toNat) = announcedCodes e.message ++ [0x0EF001] := by
            rw [← c2 hem]; exact congrArg Prod.snd r2
          have hnod : (((n.hosts q.host).remotes).map RemoteNode.addr).Nodup := by
            rw [← hj, e1, List.map_append, List.nodup_append]
            refine ⟨(hnd j).sublist (List.filter_sublist.map _), e2, ?_⟩
            intro a ha a' ha' haa
            subst haa
            obtain ⟨x, hx, rfl⟩ := List.mem_map.mp ha
            exact (of_decide_eq_true (List.mem_filter.mp hx).2) ha'
          have hmem : ∀ a, a ∈ (l.filter (fun x => decide (x.addr ≠ r.addr)) ++ [r]).map RemoteNode.addr ↔
              a ∈ l.map RemoteNode.addr ∨ a = r.addr := by
            intro a
            simp only [List.map_append, List.mem_append, List.mem_map, List.mem_filter, decide_eq_true_eq, List.map_cons,
              List.map_nil, List.mem_singleton]
            constructor
            · rintro (⟨x, ⟨hx, _⟩, rfl⟩ | h)
              · exact Or.inl ⟨x, hx, rfl⟩
              · exact Or.inr h
            · rintro (⟨x, hx, rfl⟩ | h)
              · by_cases hxa : x.addr = r.addr
                · exact Or.inr hxa
                · exact Or.inl ⟨x, ⟨hx, hxa⟩, rfl⟩
              · exact Or.inr h
          refine ⟨l.filter (fun x => decide (x.addr ≠ r.addr)) ++ [r], ?_, ?_, ?_⟩
          · rw [hrem]
            unfold replaceRemoteNode
            rw [eraseP_addr hnod, ← hj, e1, List.filter_append, List.filter_filter, List.append_assoc]
            congr 1
            apply List.filter_congr
            intro x _
            rw [Bool.eq_iff_iff]
            simp only [Bool.and_eq_true, decide_eq_true_eq, hmem, not_or]
            exact And.comm
          · rw [List.map_append, List.nodup_append]
            refine ⟨e2.sublist (List.filter_sublist.map _), by simp, ?_⟩
            intro a ha a' ha' haa
            obtain ⟨x, hx, rfl⟩ := List.mem_map.mp ha
            have h1 := of_decide_eq_true (List.mem_filter.mp hx).2
            simp only [List.map_cons, List.map_nil, List.mem_singleton] at ha'
            exact h1 (haa.trans ha')
          · intro x hx
            rcases List.mem_append.mp hx with hx | hx
            · exact e3 x (List.mem_filter.mp hx).1
            · rw [List.mem_singleton.mp hx]
              exact ⟨e, ⟨hes, hem, p, p1, by rw [p2, hj], by rw [p3, ra], by rw [hj]; exact p4⟩, rc⟩
        · have hsame : h'.remotes = (n.hosts q.host).remotes := by
            by_cases hoc : o = .controller
            · subst hoc
              have hn : ev.ctrlFree = false ∨ ¬ IsProfileMessage q.msg := by
                cases hx : ev.ctrlFree with
                | false => exact Or.inl rfl
                | true => exact Or.inr (fun hy => ho ⟨⟨rfl, hx⟩, hy⟩)
              simp only [Host.invoke, observeController_other b db ev.ω ev.uuid ev.ctrlFree (n.hosts q.host).remotes hn,
                Res.bind_ok, Res.pure_eq, Res.ok.injEq, Prod.mk.injEq] at hinv
              rw [← hinv.1]
            · exact invoke_remotes hoc hinv
          exact ⟨l, by rw [hsame, ← hj]; exact e1, e2, e3⟩
      · rw [if_neg hj]
        exact ⟨l, e1, e2, e3⟩
    · intro q' hq' hc'
      rcases List.mem_append.mp hq' with h | h
      · exact kn.busy q' (by rw [hb]; simp [h]) hc'
      · rcases List.mem_cons.mp h with rfl | h
        · exact kn.busy q hq (by rw [ht]; exact List.mem_cons_of_mem _ hc')
        · exact kn.busy q' (by rw [hb]; simp [h]) hc'

theorem noiseKnown_publish {b : Build} {db : Database} {n₀ n n' : Net S} {sent : List Sending} {i : Nat}
    {op : HostOp S} {m u : Message} {outs : List Out} {ps : List Packet} (kn : NoiseKnown sent n₀ n) (what : Publishes op m)
    (api : Net.Api b db n i op outs n') (packets : n'.flying = n.flying ++ ps) : NoiseKnown (sent ++ [⟨m, u, ps⟩]) n₀ n' := by
  obtain ⟨_, _, s3, _, _⟩ := publishes_start what api
  refine ⟨fun j => ?_, ?_, ?_⟩
  · obtain ⟨l, g1, g2, g3⟩ := kn.lists j
    refine ⟨l, by rw [publishes_remotes what api]; exact g1, g2, ?_⟩
    · intro r hr
      obtain ⟨e, ⟨h1, h2⟩, h3⟩ := g3 r hr
      exact ⟨e, ⟨by simp [h1], h2⟩, h3⟩
  · intro p hp
    rw [packets] at hp
    rcases List.mem_append.mp hp with hp | hp
    · obtain ⟨e, he, h⟩ := kn.fly p hp
      exact ⟨e, by simp [he], h⟩
    · exact ⟨⟨m, u, ps⟩, by simp, hp⟩
  · intro q hq hc
    rw [s3] at hq
    obtain ⟨e, he, h⟩ := kn.busy q hq hc
    exact ⟨e, by simp [he], h⟩

theorem noiseKnown_run {b : Build} {ω₀ : HashOrder} {db : Database} (hdb : standardDb b ω₀ = .ok db)
    {n₀ n : Net S} {sent : List Sending} {tr : List (Nat × Out)}
    (hnd : ∀ j, ((n₀.hosts j).remotes.map RemoteNode.addr).Nodup) (h : Noise b db n₀ sent tr n) :
    NoiseKnown sent n₀ n := by
  induction h with
  | start flying busy sound tame =>
    refine ⟨fun j => ⟨[], by simpa using (List.filter_eq_self.mpr (fun _ _ => rfl)).symm, by simp, by simp⟩, by rw [flying]; simp, by rw [busy]; simp⟩
  | publish _ what api _ _ _ _ packets ih => exact noiseKnown_publish ih what api packets
  | internal before step ih => exact noiseKnown_step hdb hnd (noise_run hdb before) ih step

/-! ## C100 and C101, for all executions -/

/-- C100, for all executions: also when datagrams get lost, sockets fail and receiver threads find the node or the controller in
use, nobody ever puts out a datagram in reaction to notifications, no object, request handler or state of a handler of any node
changes, no observer panics, every node keeps its sockets and registrations, and each observer of an application is called at
most once for each copy delivered to a thread it is registered with, with the content of the message sent. -/
theorem C100_all_executions (b : Build) (ω₀ : HashOrder) (db : Database) (hdb : standardDb b ω₀ = .ok db)
    (n₀ n : Net S) (sent : List Sending) (tr : List (Nat × Out)) (hrun : Noise b db n₀ sent tr n) :
    (∀ k t, (k, Out.tx t) ∉ tr) ∧ (∀ k o, n.poisoned k o = false) ∧
    ∀ j, SameContents (n₀.hosts j).node (n.hosts j).node ∧ (n.hosts j).node.transport = (n₀.hosts j).node.transport ∧
      ∃ l, (n.hosts j).seen = (n₀.hosts j).seen ++ l ∧ (∀ x ∈ l, ∃ e ∈ sent, SentAs e.message x.2) ∧
        ∀ x, (l.map (fun x => (x.1, x.2.sender, frameOf x.2))).count x ≤ (allToTell n₀ j sent).count x := by
  have inv := noise_run hdb hrun
  refine ⟨inv.quiet, inv.sound, fun j => ⟨inv.contents j, inv.transport j, ?_⟩⟩
  obtain ⟨l, g1, g2, g3⟩ := inv.seen j
  refine ⟨l, g1, ?_, fun x => ?_⟩
  · intro x hx
    obtain ⟨e, he, ⟨_, _, _, _, r1, r2⟩, k1, _, k2, k3⟩ := g2 x hx
    have ht : x.2.tid = e.handed.tid := UInt16.toNat.inj (congrArg Frame.tid k1)
    have hv : e.handed.esvByte = e.message.esvByte := congrArg Frame.esv r1
    rw [hv] at k2 k3
    exact ⟨e, he, by rw [k1, r1, ht], fun h => by rw [ht]; exact r2 h, k2, k3⟩
  · rw [allToTell_eq n₀ j sent (fun e he p hp => pktFrame_sent (inv.packets e he p hp).1 (inv.packets e he p hp).2)]
    exact Nat.le_trans (by omega) (g3 x)

/-- C101, for all executions, at any time: also when datagrams get lost, sockets fail and receiver threads find the node or the
controller in use, a controller lists at most one node per address, and each is one that it listed before or is one of the
descriptions sent that arrived at it from that address; and it forgets no node whose address it has not heard a description
from. -/
theorem C101_all_executions (b : Build) (ω₀ : HashOrder) (db : Database) (hdb : standardDb b ω₀ = .ok db)
    (n₀ n : Net S) (sent : List Sending) (tr : List (Nat × Out)) (hrun : Noise b db n₀ sent tr n)
    (hnd : ∀ j, ((n₀.hosts j).remotes.map RemoteNode.addr).Nodup) (j : Nat) :
    ((n.hosts j).remotes.map RemoteNode.addr).Nodup ∧
    (∀ r ∈ (n.hosts j).remotes, r ∈ (n₀.hosts j).remotes ∨ ∃ e, HeardFrom n₀ sent j r.addr e ∧
      r.objects.map (fun o => o.code.toNat) = announcedCodes e.message ++ [0x0EF001]) ∧
    ∀ r ∈ (n₀.hosts j).remotes, r ∈ (n.hosts j).remotes ∨ ∃ e, HeardFrom n₀ sent j r.addr e := by
  obtain ⟨l, g1, g2, g3⟩ := (noiseKnown_run hdb hnd hrun).lists j
  rw [g1]
  refine ⟨?_, ?_, ?_⟩
  · rw [List.map_append, List.nodup_append]
    refine ⟨(hnd j).sublist (List.filter_sublist.map _), g2, ?_⟩
    intro a ha a' ha' haa
    subst haa
    obtain ⟨x, hx, rfl⟩ := List.mem_map.mp ha
    exact (of_decide_eq_true (List.mem_filter.mp hx).2) ha'
  · intro r hr
    rcases List.mem_append.mp hr with hr | hr
    · exact Or.inl (List.mem_filter.mp hr).1
    · exact Or.inr (g3 r hr)
  · intro r hr
    by_cases h : r.addr ∈ l.map RemoteNode.addr
    · obtain ⟨x, hx, he⟩ := List.mem_map.mp h
      obtain ⟨e, h1, _⟩ := g3 x hx
      rw [he] at h1
      exact Or.inr ⟨e, h1⟩
    · exact Or.inl (List.mem_append_left _ (List.mem_filter.mpr ⟨hr, by simpa using h⟩))

/-- C101, recovery: whatever got lost before (`hrun` is any execution, with losses, failing sockets and contended mutexes), once
the network has been at rest and then a node announces itself while no datagram gets lost and the mutexes are free, in the end
every controller that heard it lists it, once, with exactly the objects it named, no matter what it listed before and what the
other hosts send meanwhile. -/
theorem C101_recovers (b : Build) (ω₀ : HashOrder) (db : Database) (hdb : standardDb b ω₀ = .ok db)
    (own : IpAddr → Option Nat) (n₀ n₁ n : Net S) (sent sent' : List Sending) (tr tr' : List (Nat × Out))
    (hrun : Noise b db n₀ sent tr n₁) (hrun' : Chatter b db own n₁ sent' tr' n) (hend : n.flying = [] ∧ n.busy = [])
    (hnd : ∀ j, ((n₀.hosts j).remotes.map RemoteNode.addr).Nodup) (j : Nat) (a : SocketAddr) (codes : List Nat)
    (hheard : ∃ e, HeardFrom n₀ sent' j a e) (hsame : ∀ e, HeardFrom n₀ sent' j a e → announcedCodes e.message = codes) :
    ∃ r, r ∈ (n.hosts j).remotes ∧ r.addr = a ∧ (∀ r' ∈ (n.hosts j).remotes, r'.addr = a → r' = r) ∧
      r.objects.map (fun o => o.code.toNat) = codes ++ [0x0EF001] := by
  have htr := ((C100_all_executions b ω₀ db hdb n₀ n₁ sent tr hrun).2.2 j).2.1
  have same : ∀ e, HeardFrom n₁ sent' j a e ↔ HeardFrom n₀ sent' j a e := by
    intro e
    unfold HeardFrom ControllerAt Host.threads
    rw [htr]
  refine C101_at_once b ω₀ db hdb own n₁ n sent' tr' hrun' hend
    (fun k => (C101_all_executions b ω₀ db hdb n₀ n₁ sent tr hrun hnd k).1) j a codes ?_ (fun e h => hsame e ((same e).mp h))
  obtain ⟨e, he⟩ := hheard
  exact ⟨e, (same e).mpr he⟩

theorem noise_chatter {b : Build} {db : Database} {own : IpAddr → Option Nat} {n₀ n n' : Net S} {sent sent' : List Sending}
    {tr tr' : List (Nat × Out)} (h : Noise b db n₀ sent tr n) (h' : Chatter b db own n sent' tr' n') :
    Noise b db n₀ (sent ++ sent') (tr ++ tr') n' := by
  induction h' with
  | start => simpa using h
  | publish _ what api format service not5E fits packets ih =>
    rw [← List.append_assoc]; exact .publish ih what api format service not5E fits packets
  | internal _ step ih => rw [← List.append_assoc]; exact .internal ih (reliable_internal step)

/-- Non-vacuity of `C100_all_executions`: host 0 sends a notification, of which the network loses the only copy, and then another
one, which arrives; the network comes to rest, and the observer of the application at host 1 has been called once, with the
content of the second one. The theorem allows for at most one call for each of the two. -/
example : ∃ (db : Database) (n₀ n : Net Nat) (sent : List Sending) (tr : List (Nat × Out)),
    standardDb .dev .ascending = .ok db ∧ Noise .dev db n₀ sent tr n ∧ (n.flying = [] ∧ n.busy = []) ∧
    sent.map Sending.message = [exInform, exInform₂] ∧ (allToTell n₀ 1 sent).length = 2 ∧
    ((n.hosts 1).seen.map (fun x => (x.1, x.2.sender, x.2.properties))) =
      [(7, ⟨.v4 0xC0A80001, 3610⟩, [⟨0xB0, [0x43]⟩])] := by
  obtain ⟨db, hdb, _⟩ := C21_builds .dev .ascending
  let a := exCaller
  let u := (a.updateTid exInform).1
  let a' := (a.updateTid exInform).2
  let u' := (a'.updateTid exInform₂).1
  let p : Packet := ⟨⟨.v4 0xC0A80001, 3610⟩, 1, 0, u.bytes⟩
  let p' : Packet := ⟨⟨.v4 0xC0A80001, 3610⟩, 1, 0, u'.bytes⟩
  obtain ⟨o₁, api₁, hh₁⟩ := ex_sends (b := .dev) (db := db) (n := exHosts a exListener) a [] [] rfl rfl exInform [p] (by
    intro q hq
    rw [List.mem_singleton.mp hq]; exact ⟨rfl, rfl⟩)
  have c₁ : Noise .dev db (exHosts a exListener) ([] ++ [⟨exInform, u, [p]⟩]) [] _ :=
    .publish (.start rfl rfl (fun _ _ => rfl) (fun _ => rfl)) (.nodeSend _ _ _) api₁ (by decide +kernel) (by decide +kernel)
      (by decide +kernel) (by intro g v hv; rw [hh₁ g v hv]; exact ⟨rfl, by unfold Fits; decide +kernel⟩) rfl
  have c₂ := c₁.internal (.lose [] [] p rfl)
  let n₁ : Net Nat := { (exHosts a exListener).setHost 0 ⟨a', [], []⟩ with flying := [] }
  obtain ⟨o₂, api₂, hh₂⟩ := ex_sends (b := .dev) (db := db) (n := n₁) a' [] [] rfl (Node.updateTid_transport _ _) exInform₂ [p'] (by
    intro q hq
    rw [List.mem_singleton.mp hq]; exact ⟨rfl, rfl⟩)
  have d₁ : Chatter .dev db exOwn n₁ ([] ++ [⟨exInform₂, u', [p']⟩]) [] _ :=
    .publish (.start rfl rfl (fun _ _ => rfl)) (.nodeSend _ _ _) api₂ (by decide +kernel) (by decide +kernel) (by decide +kernel)
      (by intro g v hv; rw [hh₂ g v hv]; exact ⟨rfl, by unfold Fits; decide +kernel⟩) rfl
  obtain ⟨tr, n, hrun, hend⟩ := (C84_progress (S := Nat) .dev db exOwn).2.2 _
  have d₂ := chatter_prompt d₁ hrun
  refine ⟨db, _, n, _, _, hdb, noise_chatter c₂ d₂, hend, rfl, by decide +kernel, ?_⟩
  obtain ⟨l, h1, h2, h3⟩ := C100_chatter .dev .ascending db hdb exOwn _ n _ _ d₂ hend 1
  have h3 : (l.map (fun x => (x.1, x.2.sender, frameOf x.2))) = [(7, ⟨.v4 0xC0A80001, 3610⟩, frameOf u')] := by
    refine List.perm_singleton.mp (h3.trans (.of_eq ?_))
    decide +kernel
  rw [h1, show (n₁.hosts 1).seen = [] from rfl, List.nil_append]
  obtain ⟨x, rfl⟩ := List.length_eq_one_iff.mp (by simpa using congrArg List.length h3)
  obtain ⟨x, m⟩ := x
  simp only [List.map_cons, List.map_nil, List.cons.injEq, and_true, Prod.mk.injEq] at h3
  obtain ⟨g1, g2, g3⟩ := h3
  have hv : m.esvByte = u'.esvByte := congrArg Frame.esv g3
  have hw : isWriteReadByte m.esvByte = false := by rw [hv]; decide +kernel
  have hb : (frameOf m).body = .single [⟨0xB0, [0x43]⟩] := by rw [g3]; decide +kernel
  simp only [frameOf, hw, Bool.false_eq_true, if_false, Body.single.injEq] at hb
  simp only [List.map_cons, List.map_nil, g1, g2, hb]

/-- Non-vacuity of `C101_all_executions` and `C101_recovers`: host 0 sends its instance list, of which the network loses the only copy, and sends it
again; this time it arrives at host 1, whose controller then lists host 0 with its new object. -/
example : ∃ (db : Database) (n : Net Nat) (sent : List Sending) (tr : List (Nat × Out)) (r : RemoteNode),
    standardDb .dev .ascending = .ok db ∧ Noise .dev db exKnowing sent tr n ∧
    (∀ j, ((exKnowing.hosts j).remotes.map RemoteNode.addr).Nodup) ∧
    sent.map Sending.message = [exListMessage, exListMessage] ∧
    r ∈ (n.hosts 1).remotes ∧ r ∉ (exKnowing.hosts 1).remotes ∧ r.addr = ⟨.v4 0xC0A80001, 3610⟩ ∧
    r.objects.map (fun o => o.code.toNat) = [0x029001, 0x0EF001] := by
  obtain ⟨db, hdb, _⟩ := C21_builds .dev .ascending
  let a := exCaller
  let u := (a.updateTid exListMessage).1
  let a' := (a.updateTid exListMessage).2
  let u' := (a'.updateTid exListMessage).1
  let p : Packet := ⟨⟨.v4 0xC0A80001, 3610⟩, 1, 0, u.bytes⟩
  let p' : Packet := ⟨⟨.v4 0xC0A80001, 3610⟩, 1, 0, u'.bytes⟩
  obtain ⟨o₁, api₁, hh₁⟩ := ex_sends (b := .dev) (db := db) (n := exKnowing) a [] [] rfl rfl exListMessage [p] (by
    intro q hq
    rw [List.mem_singleton.mp hq]; exact ⟨rfl, rfl⟩)
  have c₁ : Noise .dev db exKnowing ([] ++ [⟨exListMessage, u, [p]⟩]) [] _ :=
    .publish (.start rfl rfl (fun _ _ => rfl) (fun _ => rfl)) (.nodeSend _ _ _) api₁ (by decide +kernel) (by decide +kernel)
      (by decide +kernel) (by intro g v hv; rw [hh₁ g v hv]; exact ⟨rfl, by unfold Fits; decide +kernel⟩) rfl
  have c₂ := c₁.internal (.lose [] [] p rfl)
  let n₁ : Net Nat := { exKnowing.setHost 0 ⟨a', [], []⟩ with flying := [] }
  obtain ⟨o₂, api₂, hh₂⟩ := ex_sends (b := .dev) (db := db) (n := n₁) a' [] [] rfl (Node.updateTid_transport _ _) exListMessage [p'] (by
    intro q hq
    rw [List.mem_singleton.mp hq]; exact ⟨rfl, rfl⟩)
  have d₁ : Chatter .dev db exOwn n₁ ([] ++ [⟨exListMessage, u', [p']⟩]) [] _ :=
    .publish (.start rfl rfl (fun _ _ => rfl)) (.nodeSend _ _ _) api₂ (by decide +kernel) (by decide +kernel) (by decide +kernel)
      (by intro g v hv; rw [hh₂ g v hv]; exact ⟨rfl, by unfold Fits; decide +kernel⟩) rfl
  obtain ⟨tr, n, hrun, hend⟩ := (C84_progress (S := Nat) .dev db exOwn).2.2 _
  have d₂ := chatter_prompt d₁ hrun
  have hnd : ∀ j, ((exKnowing.hosts j).remotes.map RemoteNode.addr).Nodup := by
    intro j
    by_cases h0 : j = 0
    · subst h0; exact List.nodup_nil
    by_cases h1 : j = 1
    · subst h1
      show [(⟨.v4 0xC0A80001, 3610⟩ : SocketAddr), ⟨.v4 0xC0A80009, 3610⟩].Nodup
      decide
    · simp only [exKnowing, if_neg h0, if_neg h1]; exact List.nodup_nil
  have hheard : ∃ e, HeardFrom exKnowing ([] ++ [⟨exListMessage, u', [p']⟩]) 1 ⟨.v4 0xC0A80001, 3610⟩ e :=
    ⟨⟨exListMessage, u', [p']⟩, by simp, by decide +kernel, p', by simp, rfl, rfl, ⟨.v4 0xC0A80002, [.node, .controller], .running⟩, rfl, rfl, by simp⟩
  have hsame : ∀ e, HeardFrom exKnowing ([] ++ [⟨exListMessage, u', [p']⟩]) 1 ⟨.v4 0xC0A80001, 3610⟩ e →
      announcedCodes e.message = [0x029001] := by
    rintro e ⟨he, hm, _⟩
    rw [List.nil_append, List.mem_singleton] at he
    subst he
    decide +kernel
  obtain ⟨r, h1, h2, _, h4⟩ := C101_recovers .dev .ascending db hdb exOwn _ _ n _ _ _ _ c₂ d₂ hend hnd 1 _ _ hheard hsame
  refine ⟨db, n, _, _, r, hdb, noise_chatter c₂ d₂, hnd, rfl, h1, ?_, h2, h4⟩
  intro hr
  have hc : ∀ r ∈ (exKnowing.hosts 1).remotes, r.objects.map (fun o => o.code.toNat) ≠ [0x029001, 0x0EF001] := by
    decide +kernel
  exact hc r hr h4

end Uecho
