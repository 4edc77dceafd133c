import Verif.Props.Chatter
/-!
# What controllers learn when several nodes announce at once: C101
-/
namespace Uecho
open Spec
variable {S : Type}

/-- The lists, as far as copies have been processed. -/
structure ChatKnown (sent : List Sending) (n₀ n : Net S) : Prop where
  lists : ∀ j, ∃ l, (n.hosts j).remotes =
      (n₀.hosts j).remotes.filter (fun r => decide (r.addr ∉ l.map RemoteNode.addr)) ++ l ∧
    (l.map RemoteNode.addr).Nodup ∧
    (∀ r ∈ l, ∃ e, HeardFrom n₀ sent j r.addr e ∧
      r.objects.map (fun o => o.code.toNat) = announcedCodes e.message ++ [0x0EF001]) ∧
    ∀ a e, HeardFrom n₀ sent j a e → a ∈ l.map RemoteNode.addr ∨
      (∃ p ∈ n.flying, p ∈ e.packets ∧ p.host = j ∧ p.src = a ∧ ControllerAt n₀ j p.srv) ∨
      ∃ q ∈ n.busy, q.host = j ∧ q.msg.sender = a ∧ ObserverRef.controller ∈ q.todo ∧ IsProfileMessage q.msg
  fly : ∀ p ∈ n.flying, ∃ e ∈ sent, p ∈ e.packets
  busy : ∀ q ∈ n.busy, ObserverRef.controller ∈ q.todo → ∃ e ∈ sent, Chatty e ∧ ToldCopy e.handed q.msg ∧
    ∃ p ∈ e.packets, p.host = q.host ∧ p.src = q.msg.sender ∧ ControllerAt n₀ q.host p.srv

theorem frame_profile {u m : Message} {t : Nat} (h : frameOf u = { frameOf m with tid := t }) :
    (IsProfileMessage u ↔ IsProfileMessage m) ∧ (IsProfileMessage m → announcedCodes u = announcedCodes m) := by
  have g1 : u.esvByte = m.esvByte := by have := congrArg Frame.esv h; exact this
  have g2 : u.deoj = m.deoj := UInt32.toNat.inj (by have := congrArg Frame.deoj h; exact this)
  refine ⟨by unfold IsProfileMessage; rw [g1, g2], fun hm => ?_⟩
  have hw : isWriteReadByte m.esvByte = false := by rcases hm.1 with h | h <;> rw [h] <;> rfl
  have hb : (frameOf u).body = (frameOf m).body := by rw [h]
  unfold frameOf at hb
  rw [g1, hw] at hb
  simp only [Bool.false_eq_true, if_false, Body.single.injEq] at hb
  unfold announcedCodes; rw [hb]

theorem chatty_profile {e : Sending} (hc : Chatty e) {q : Message} (h : ToldCopy e.handed q) :
    (IsProfileMessage q ↔ IsProfileMessage e.message) ∧
    (IsProfileMessage e.message → announcedCodes q = announcedCodes e.message) := by
  have h1 := frame_profile hc.2.2.2.2.1
  refine ⟨(told_profile_iff h).trans h1.1, fun hm => ?_⟩
  rw [(told_profile h (h1.1.mpr hm)).2, h1.2 hm]

theorem chatKnown_step {b : Build} {ω₀ : HashOrder} {db : Database} (hdb : standardDb b ω₀ = .ok db)
    {own : IpAddr → Option Nat} {sent : List Sending} {n₀ n n' : Net S} {tr : List (Nat × Out)} {k : Nat} {outs : List Out}
    (hnd : ∀ j, ((n₀.hosts j).remotes.map RemoteNode.addr).Nodup)
    (inv : ChatInv sent n₀ tr n) (kn : ChatKnown sent n₀ n) (h : Reliable b db own n k outs n') : ChatKnown sent n₀ n' := by
  have hthr : ∀ j, (n.hosts j).threads = (n₀.hosts j).threads := by
    intro j; unfold Host.threads; rw [inv.transport j]
  cases h with
  | receive l₁ l₂ p s hf hs hrun hidle =>
    have hp : p ∈ n.flying := by rw [hf]; simp
    obtain ⟨e, he, hpe⟩ := kn.fly p hp
    obtain ⟨hgood, hbytes⟩ := inv.packets e he p hpe
    obtain ⟨q, hq, hc, hsrc⟩ := told_received hgood.1 hgood.2.1 hgood.2.2.2.1 p.src
    rw [← hbytes] at hq
    have hx : n.received p s (l₁ ++ l₂) =
        { n with flying := l₁ ++ l₂, busy := n.busy ++ [⟨p.host, p.srv, q, s.observers⟩] } := by
      unfold Net.received; rw [hq]
    rw [hx]
    refine ⟨fun j => ?_, fun p' hp' => kn.fly p' (mem_of_split hf hp'), ?_⟩
    · obtain ⟨l, g1, g2, g3, g5⟩ := kn.lists j
      refine ⟨l, g1, g2, g3, fun a e' ha => ?_⟩
      rcases g5 a e' ha with h | ⟨p', hp', k0, k1, k2, k3⟩ | ⟨q', hq', k1, k2, k3, k4⟩
      · exact Or.inl h
      · rw [hf] at hp'
        by_cases hpp : p' = p
        · subst hpp
          obtain ⟨hgood', hbytes'⟩ := inv.packets e' ha.1 p' k0
          obtain ⟨q₁, hq₁, hc₁, _⟩ := told_received hgood'.1 hgood'.2.1 hgood'.2.2.2.1 p'.src
          rw [← hbytes', hq] at hq₁
          simp only [Prod.mk.injEq, List.cons.injEq, and_true] at hq₁
          rw [← hq₁] at hc₁
          refine Or.inr (Or.inr ⟨⟨p'.host, p'.srv, q, s.observers⟩, by simp, k1, hsrc.trans k2, ?_, (chatty_profile hgood' hc₁).1.mpr ha.2.1⟩)
          obtain ⟨s', k3, _, k5⟩ := k3
          rw [← k1, ← hthr, hs] at k3
          rw [Option.some.inj k3]; exact k5
        · refine Or.inr (Or.inl ⟨p', ?_, k0, k1, k2, k3⟩)
          rcases List.mem_append.mp hp' with h | h
          · exact List.mem_append_left _ h
          · exact List.mem_append_right _ ((List.mem_cons.mp h).resolve_left hpp)
      · exact Or.inr (Or.inr ⟨q', List.mem_append_left _ hq', k1, k2, k3, k4⟩)
    · intro q' hq' hc'
      rcases List.mem_append.mp hq' with hq' | hq'
      · exact kn.busy q' hq' hc'
      · rw [List.mem_singleton.mp hq'] at hc' ⊢
        exact ⟨e, he, hgood, hc, p, hpe, rfl, hsrc.symm, s, by rw [← hthr]; exact hs, hrun, hc'⟩
  | drop l₁ l₂ p hf hd =>
    refine ⟨fun j => ?_, fun p' hp' => kn.fly p' (mem_of_split hf hp'), kn.busy⟩
    obtain ⟨l, g1, g2, g3, g5⟩ := kn.lists j
    refine ⟨l, g1, g2, g3, fun a e ha => ?_⟩
    rcases g5 a e ha with h | ⟨p', hp', k0, k1, k2, k3⟩ | h
    · exact Or.inl h
    · refine Or.inr (Or.inl ⟨p', ?_, k0, k1, k2, k3⟩)
      rw [hf] at hp'
      rcases List.mem_append.mp hp' with h | h
      · exact List.mem_append_left _ h
      · rcases List.mem_cons.mp h with rfl | h
        · obtain ⟨s', k3, k4, _⟩ := k3
          exact absurd ⟨s', by rw [k1, hthr]; exact k3, k4⟩ hd
        · exact List.mem_append_right _ h
    · exact Or.inr (Or.inr h)
  | done l₁ l₂ q hb ht =>
    refine ⟨fun j => ?_, kn.fly, fun q' hq' => kn.busy q' (mem_of_split hb hq')⟩
    obtain ⟨l, g1, g2, g3, g5⟩ := kn.lists j
    refine ⟨l, g1, g2, g3, fun a e ha => ?_⟩
    rcases g5 a e ha with h | h | ⟨q', hq', k1, k2, k3, k4⟩
    · exact Or.inl h
    · exact Or.inr (Or.inl h)
    · refine Or.inr (Or.inr ⟨q', ?_, k1, k2, k3, k4⟩)
      rw [hb] at hq'
      rcases List.mem_append.mp hq' with h | h
      · exact List.mem_append_left _ h
      · rcases List.mem_cons.mp h with rfl | h
        · rw [ht] at k3; simp at k3
        · exact List.mem_append_right _ h
  | skip l₁ l₂ q o os hb ht hpo hm => rw [inv.sound] at hpo; cases hpo
  | infected l₁ l₂ q o os hb ht hpo => rw [inv.sound] at hpo; cases hpo
  | die l₁ l₂ q o os ev hb ht hpo hu hfree hok hinv =>
    exfalso
    obtain ⟨e, _, ⟨_, _, hresp, h5, _⟩, hc⟩ := inv.busy q (by rw [hb]; simp)
    have he : q.msg.esvByte = e.handed.esvByte := congrArg Frame.esv hc.1
    obtain ⟨h', outs', g, _⟩ := told_invoke (h := n.hosts q.host) hdb hc.2.1 (by rw [he]; exact hresp) (by rw [he]; exact h5) hu o
    rw [hinv] at g; cases g
  | call l₁ l₂ q o os ev h' outs ps hb ht hpo hu hfree hok hinv hps =>
    have hq : q ∈ n.busy := by rw [hb]; simp
    obtain ⟨e₀, _, ⟨_, _, hresp, h5, _⟩, hc₀⟩ := inv.busy q hq
    have he₀ : q.msg.esvByte = e₀.handed.esvByte := congrArg Frame.esv hc₀.1
    obtain ⟨h'', outs', g1, g2, _, _, _⟩ := told_invoke (h := n.hosts q.host) hdb hc₀.2.1 (by rw [he₀]; exact hresp)
      (by rw [he₀]; exact h5) hu o
    rw [hinv] at g1
    simp only [Res.ok.injEq, Prod.mk.injEq] at g1
    obtain ⟨rfl, rfl⟩ := g1
    have hnil : ps = [] := by
      cases ps with
      | nil => rfl
      | cons p ps =>
        obtain ⟨t, h, _⟩ := hps.1 p List.mem_cons_self
        have := mem_txs.mp h; rw [g2] at this; simp at this
    subst hnil
    rw [List.append_nil]
    have hhost : ∀ j, (n.setHost q.host h').hosts j = if j = q.host then h' else n.hosts j := fun j => rfl
    have still : ∀ j a, (∃ q' ∈ n.busy, q'.host = j ∧ q'.msg.sender = a ∧ ObserverRef.controller ∈ q'.todo ∧ IsProfileMessage q'.msg) →
        (∃ q' ∈ l₁ ++ { q with todo := os } :: l₂, q'.host = j ∧ q'.msg.sender = a ∧ ObserverRef.controller ∈ q'.todo ∧
          IsProfileMessage q'.msg) ∨
        (o = .controller ∧ q.host = j ∧ q.msg.sender = a ∧ IsProfileMessage q.msg) := by
      rintro j a ⟨q', hq', k1, k2, k3, k4⟩
      rw [hb] at hq'
      rcases List.mem_append.mp hq' with h | h
      · exact Or.inl ⟨q', List.mem_append_left _ h, k1, k2, k3, k4⟩
      · rcases List.mem_cons.mp h with rfl | h
        · rw [ht] at k3
          rcases List.mem_cons.mp k3 with k3 | k3
          · exact Or.inr ⟨k3.symm, k1, k2, k4⟩
          · exact Or.inl ⟨{ q' with todo := os }, by simp, k1, k2, k3, k4⟩
        · exact Or.inl ⟨q', by simp [h], k1, k2, k3, k4⟩
    refine ⟨fun j => ?_, kn.fly, ?_⟩
    · obtain ⟨l, e1, e2, e3, e5⟩ := kn.lists j
      show ∃ l, ((n.setHost q.host h').hosts j).remotes = _ ∧ _
      rw [hhost]
      by_cases hj : j = q.host
      · rw [if_pos hj]
        by_cases ho : o = .controller ∧ IsProfileMessage q.msg
        · obtain ⟨ho, hpm⟩ := ho
          subst ho
          obtain ⟨e, hes, hgood, hc, p, p1, p2, p3, p4⟩ := kn.busy q hq (by rw [ht]; exact List.mem_cons_self)
          obtain ⟨c1, c2⟩ := chatty_profile hgood hc
          have hem := c1.mp hpm
          obtain ⟨r, r1, r2, _⟩ := observeController_profile hdb ev.ω ev.uuid hu (n.hosts q.host).remotes hpm
          have hrem : h'.remotes = replaceRemoteNode (n.hosts q.host).remotes r := by
            simp only [Host.invoke, hfree.2, r1, Res.bind_ok, Res.pure_eq, Res.ok.injEq, Prod.mk.injEq] at hinv
            rw [← hinv.1]
          have ra : r.addr = q.msg.sender := congrArg Prod.fst r2
          have rc : r.objects.map (fun o => o.code.toNat) = announcedCodes e.message ++ [0x0EF001] := by
            rw [← c2 hem]; exact congrArg Prod.snd r2
          have hnod : (((n.hosts q.host).remotes).map RemoteNode.addr).Nodup := by
            rw [← hj, e1, List.map_append, List.nodup_append]
            refine ⟨(hnd j).sublist (List.filter_sublist.map _), e2, ?_⟩
            intro a ha a' ha' haa
            subst haa
            obtain ⟨x, hx, rfl⟩ := List.mem_map.mp ha
            exact (of_decide_eq_true (List.mem_filter.mp hx).2) ha'
          have hmem : ∀ a, a ∈ (l.filter (fun x => decide (x.addr ≠ r.addr)) ++ [r]).map RemoteNode.addr ↔
              a ∈ l.map RemoteNode.addr ∨ a = r.addr := by
            intro a
            simp only [List.map_append, List.mem_append, List.mem_map, List.mem_filter, decide_eq_true_eq, List.map_cons,
              List.map_nil, List.mem_singleton]
            constructor
            · rintro (⟨x, ⟨hx, _⟩, rfl⟩ | h)
              · exact Or.inl ⟨x, hx, rfl⟩
              · exact Or.inr h
            · rintro (⟨x, hx, rfl⟩ | h)
              · by_cases hxa : x.addr = r.addr
                · exact Or.inr hxa
                · exact Or.inl ⟨x, ⟨hx, hxa⟩, rfl⟩
              · exact Or.inr h
          refine ⟨l.filter (fun x => decide (x.addr ≠ r.addr)) ++ [r], ?_, ?_, ?_, ?_⟩
          · rw [hrem]
            unfold replaceRemoteNode
            rw [eraseP_addr hnod, ← hj, e1, List.filter_append, List.filter_filter, List.append_assoc]
            congr 1
            apply List.filter_congr
            intro x _
            rw [Bool.eq_iff_iff]
            simp only [Bool.and_eq_true, decide_eq_true_eq, hmem, not_or]
            exact And.comm
          · rw [List.map_append, List.nodup_append]
            refine ⟨e2.sublist (List.filter_sublist.map _), by simp, ?_⟩
            intro a ha a' ha' haa
            obtain ⟨x, hx, rfl⟩ := List.mem_map.mp ha
            have h1 := of_decide_eq_true (List.mem_filter.mp hx).2
            simp only [List.map_cons, List.map_nil, List.mem_singleton] at ha'
            exact h1 (haa.trans ha')
          · intro x hx
            rcases List.mem_append.mp hx with hx | hx
            · exact e3 x (List.mem_filter.mp hx).1
            · rw [List.mem_singleton.mp hx]
              exact ⟨e, ⟨hes, hem, p, p1, by rw [p2, hj], by rw [p3, ra], by rw [hj]; exact p4⟩, rc⟩
          · intro a e' ha
            rcases e5 a e' ha with h | h | h
            · exact Or.inl ((hmem a).mpr (Or.inl h))
            · exact Or.inr (Or.inl h)
            · rcases still j a h with h | ⟨_, _, h, _⟩
              · exact Or.inr (Or.inr h)
              · exact Or.inl ((hmem a).mpr (Or.inr (h.symm.trans ra.symm)))
        · have hsame : h'.remotes = (n.hosts q.host).remotes := by
            by_cases hoc : o = .controller
            · subst hoc
              have hn : ¬ IsProfileMessage q.msg := fun hx => ho ⟨rfl, hx⟩
              simp only [Host.invoke, observeController_other b db ev.ω ev.uuid ev.ctrlFree (n.hosts q.host).remotes (Or.inr hn),
                Res.bind_ok, Res.pure_eq, Res.ok.injEq, Prod.mk.injEq] at hinv
              rw [← hinv.1]
            · exact invoke_remotes hoc hinv
          refine ⟨l, by rw [hsame, ← hj]; exact e1, e2, e3, fun a e' ha => ?_⟩
          rcases e5 a e' ha with h | h | h
          · exact Or.inl h
          · exact Or.inr (Or.inl h)
          · rcases still j a h with h | ⟨h, _, _, h'⟩
            · exact Or.inr (Or.inr h)
            · exact absurd ⟨h, h'⟩ ho
      · rw [if_neg hj]
        refine ⟨l, e1, e2, e3, fun a e' ha => ?_⟩
        rcases e5 a e' ha with h | h | h
        · exact Or.inl h
        · exact Or.inr (Or.inl h)
        · rcases still j a h with h | ⟨_, h, _⟩
          · exact Or.inr (Or.inr h)
          · exact absurd h.symm hj
    · intro q' hq' hc'
      rcases List.mem_append.mp hq' with h | h
      · exact kn.busy q' (by rw [hb]; simp [h]) hc'
      · rcases List.mem_cons.mp h with rfl | h
        · exact kn.busy q hq (by rw [ht]; exact List.mem_cons_of_mem _ hc')
        · exact kn.busy q' (by rw [hb]; simp [h]) hc'

theorem chatKnown_publish {b : Build} {db : Database} {n₀ n n' : Net S} {sent : List Sending} {i : Nat}
    {op : HostOp S} {m u : Message} {outs : List Out} {ps : List Packet} (kn : ChatKnown sent n₀ n) (what : Publishes op m)
    (api : Net.Api b db n i op outs n') (packets : n'.flying = n.flying ++ ps) : ChatKnown (sent ++ [⟨m, u, ps⟩]) n₀ n' := by
  obtain ⟨_, _, s3, _, _⟩ := publishes_start what api
  refine ⟨fun j => ?_, ?_, ?_⟩
  · obtain ⟨l, g1, g2, g3, g5⟩ := kn.lists j
    refine ⟨l, by rw [publishes_remotes what api]; exact g1, g2, ?_, ?_⟩
    · intro r hr
      obtain ⟨e, ⟨h1, h2⟩, h3⟩ := g3 r hr
      exact ⟨e, ⟨by simp [h1], h2⟩, h3⟩
    · rintro a e ⟨he, h2, p, h3, h4⟩
      rw [s3, packets]
      rcases List.mem_append.mp he with he | he
      · rcases g5 a e ⟨he, h2, p, h3, h4⟩ with h | ⟨p', hp', h⟩ | h
        · exact Or.inl h
        · exact Or.inr (Or.inl ⟨p', by simp [hp'], h⟩)
        · exact Or.inr (Or.inr h)
      · refine Or.inr (Or.inl ⟨p, ?_, h3, h4⟩)
        rw [List.mem_singleton.mp he] at h3
        exact List.mem_append_right _ h3
  · intro p hp
    rw [packets] at hp
    rcases List.mem_append.mp hp with hp | hp
    · obtain ⟨e, he, h⟩ := kn.fly p hp
      exact ⟨e, by simp [he], h⟩
    · exact ⟨⟨m, u, ps⟩, by simp, hp⟩
  · intro q hq hc
    rw [s3] at hq
    obtain ⟨e, he, h⟩ := kn.busy q hq hc
    exact ⟨e, by simp [he], h⟩

theorem chatKnown_run {b : Build} {ω₀ : HashOrder} {db : Database} (hdb : standardDb b ω₀ = .ok db)
    {own : IpAddr → Option Nat} {n₀ n : Net S} {sent : List Sending} {tr : List (Nat × Out)}
    (hnd : ∀ j, ((n₀.hosts j).remotes.map RemoteNode.addr).Nodup) (h : Chatter b db own n₀ sent tr n) :
    ChatKnown sent n₀ n := by
  induction h with
  | start flying busy sound =>
    refine ⟨fun j => ⟨[], by simpa using (List.filter_eq_self.mpr (fun _ _ => rfl)).symm, by simp, by simp, ?_⟩, by rw [flying]; simp, by rw [busy]; simp⟩
    rintro a e ⟨h, _⟩
    simp at h
  | publish _ what api _ _ _ _ packets ih => exact chatKnown_publish ih what api packets
  | internal before step ih => exact chatKnown_step hdb hnd (chat_run hdb before) ih step

/-! ## C101 -/

/-- C101: whatever notifications and other responses applications of any hosts send out, at any time and also at once: whenever
the network is at rest again, each controller (whose list had at most one entry per address) lists exactly one node for each
address it has heard a node description from, with exactly the objects of one of the descriptions heard from there (and the node
profile), and its other entries are as before, in the same order. -/
theorem C101_descriptions (b : Build) (ω₀ : HashOrder) (db : Database) (hdb : standardDb b ω₀ = .ok db)
    (own : IpAddr → Option Nat) (n₀ n : Net S) (sent : List Sending) (tr : List (Nat × Out))
    (hrun : Chatter b db own n₀ sent tr n) (hend : n.flying = [] ∧ n.busy = [])
    (hnd : ∀ j, ((n₀.hosts j).remotes.map RemoteNode.addr).Nodup) (j : Nat) :
    ∃ l, (n.hosts j).remotes = (n₀.hosts j).remotes.filter (fun r => decide (r.addr ∉ l.map RemoteNode.addr)) ++ l ∧
      (l.map RemoteNode.addr).Nodup ∧ (∀ a, a ∈ l.map RemoteNode.addr ↔ ∃ e, HeardFrom n₀ sent j a e) ∧
      ∀ r ∈ l, ∃ e, HeardFrom n₀ sent j r.addr e ∧
        r.objects.map (fun o => o.code.toNat) = announcedCodes e.message ++ [0x0EF001] := by
  obtain ⟨l, g1, g2, g3, g5⟩ := (chatKnown_run hdb hnd hrun).lists j
  refine ⟨l, g1, g2, fun a => ⟨fun ha => ?_, ?_⟩, g3⟩
  · obtain ⟨r, hr, rfl⟩ := List.mem_map.mp ha
    obtain ⟨e, h, _⟩ := g3 r hr
    exact ⟨e, h⟩
  · rintro ⟨e, he⟩
    rcases g5 a e he with h | ⟨p, hp, _⟩ | ⟨q, hq, _⟩
    · exact h
    · rw [hend.1] at hp; simp at hp
    · rw [hend.2] at hq; simp at hq

/-- C101, when nodes announce themselves at once: if all descriptions a controller hears from an address name the same objects,
it lists exactly these in the end, no matter what the other hosts send meanwhile. -/
theorem C101_at_once (b : Build) (ω₀ : HashOrder) (db : Database) (hdb : standardDb b ω₀ = .ok db)
    (own : IpAddr → Option Nat) (n₀ n : Net S) (sent : List Sending) (tr : List (Nat × Out))
    (hrun : Chatter b db own n₀ sent tr n) (hend : n.flying = [] ∧ n.busy = [])
    (hnd : ∀ j, ((n₀.hosts j).remotes.map RemoteNode.addr).Nodup) (j : Nat) (a : SocketAddr) (codes : List Nat)
    (hheard : ∃ e, HeardFrom n₀ sent j a e) (hsame : ∀ e, HeardFrom n₀ sent j a e → announcedCodes e.message = codes) :
    ∃ r, r ∈ (n.hosts j).remotes ∧ r.addr = a ∧ (∀ r' ∈ (n.hosts j).remotes, r'.addr = a → r' = r) ∧
      r.objects.map (fun o => o.code.toNat) = codes ++ [0x0EF001] := by
  obtain ⟨l, g1, g2, g3, g4⟩ := C101_descriptions b ω₀ db hdb own n₀ n sent tr hrun hend hnd j
  obtain ⟨r, hr, hra⟩ := List.mem_map.mp ((g3 a).mpr hheard)
  obtain ⟨e, he, hc⟩ := g4 r hr
  rw [hra] at he
  refine ⟨r, by rw [g1]; simp [hr], hra, ?_, by rw [hc, hsame e he]⟩
  intro r' hr' hx
  rw [g1] at hr'
  rcases List.mem_append.mp hr' with hm | hm
  · have := (List.mem_filter.mp hm).2
    simp only [decide_eq_true_eq] at this
    exact absurd ((g3 r'.addr).mpr (by rw [hx]; exact hheard)) this
  · obtain ⟨k, hk, e⟩ := List.mem_iff_getElem.mp hm
    obtain ⟨k', hk', e'⟩ := List.mem_iff_getElem.mp hr
    have hkk : k = k' := by
      apply (List.getElem_inj (h₀ := by simpa using hk) (h₁ := by simpa using hk') g2).mp
      rw [List.getElem_map, List.getElem_map, e, e', hx, hra]
    subst hkk
    rw [← e, e']

/-- C101, at any time, also while messages are under way: a controller lists at most one node per address, and each is one that
it listed before or is one of the descriptions sent and heard by it from that address. -/
theorem C101_any_time (b : Build) (ω₀ : HashOrder) (db : Database) (hdb : standardDb b ω₀ = .ok db)
    (own : IpAddr → Option Nat) (n₀ n : Net S) (sent : List Sending) (tr : List (Nat × Out))
    (hrun : Chatter b db own n₀ sent tr n) (hnd : ∀ j, ((n₀.hosts j).remotes.map RemoteNode.addr).Nodup) (j : Nat) :
    ((n.hosts j).remotes.map RemoteNode.addr).Nodup ∧
    (∀ r ∈ (n.hosts j).remotes, r ∈ (n₀.hosts j).remotes ∨ ∃ e, HeardFrom n₀ sent j r.addr e ∧
      r.objects.map (fun o => o.code.toNat) = announcedCodes e.message ++ [0x0EF001]) ∧
    ∀ r ∈ (n₀.hosts j).remotes, r ∈ (n.hosts j).remotes ∨ ∃ e, HeardFrom n₀ sent j r.addr e := by
  obtain ⟨l, g1, g2, g3, _⟩ := (chatKnown_run hdb hnd hrun).lists j
  rw [g1]
  refine ⟨?_, ?_, ?_⟩
  · rw [List.map_append, List.nodup_append]
    refine ⟨(hnd j).sublist (List.filter_sublist.map _), g2, ?_⟩
    intro a ha a' ha' haa
    subst haa
    obtain ⟨x, hx, rfl⟩ := List.mem_map.mp ha
    exact (of_decide_eq_true (List.mem_filter.mp hx).2) ha'
  · intro r hr
    rcases List.mem_append.mp hr with hr | hr
    · exact Or.inl (List.mem_filter.mp hr).1
    · exact Or.inr (g3 r hr)
  · intro r hr
    by_cases h : r.addr ∈ l.map RemoteNode.addr
    · obtain ⟨x, hx, he⟩ := List.mem_map.mp h
      obtain ⟨e, h1, _⟩ := g3 x hx
      rw [he] at h1
      exact Or.inr ⟨e, h1⟩
    · exact Or.inl (List.mem_append_left _ (List.mem_filter.mpr ⟨hr, by simpa using h⟩))

/-- Non-vacuity of `C101_descriptions` and `C101_at_once`: host 0 sends its instance list, of which the network delivers two
copies to the controller of host 1, and right away another notification; the network comes to rest, and the controller lists
host 0 with its new object. -/
example : ∃ (db : Database) (n : Net Nat) (sent : List Sending) (tr : List (Nat × Out)) (r : RemoteNode),
    standardDb .dev .ascending = .ok db ∧ Chatter .dev db exOwn exKnowing sent tr n ∧ (n.flying = [] ∧ n.busy = []) ∧
    sent.map Sending.message = [exListMessage, exInform₂] ∧
    (∀ j, ((exKnowing.hosts j).remotes.map RemoteNode.addr).Nodup) ∧
    (∃ e, HeardFrom exKnowing sent 1 ⟨.v4 0xC0A80001, 3610⟩ e) ∧
    (∀ e, HeardFrom exKnowing sent 1 ⟨.v4 0xC0A80001, 3610⟩ e → announcedCodes e.message = [0x029001]) ∧
    r ∈ (n.hosts 1).remotes ∧ r.addr = ⟨.v4 0xC0A80001, 3610⟩ ∧
    r.objects.map (fun o => o.code.toNat) = [0x029001, 0x0EF001] := by
  obtain ⟨db, hdb, _⟩ := C21_builds .dev .ascending
  let a := exCaller
  let u := (a.updateTid exListMessage).1
  let a' := (a.updateTid exListMessage).2
  let u' := (a'.updateTid exInform₂).1
  let p : Packet := ⟨⟨.v4 0xC0A80001, 3610⟩, 1, 0, u.bytes⟩
  let p' : Packet := ⟨⟨.v4 0xC0A80001, 3610⟩, 1, 0, u'.bytes⟩
  obtain ⟨o₁, api₁, hh₁⟩ := ex_sends (b := .dev) (db := db) (n := exKnowing) a [] [] rfl rfl exListMessage [p, p] (by
    intro q hq
    have hq : q = p := by simpa using hq
    rw [hq]; exact ⟨rfl, rfl⟩)
  have c₁ : Chatter .dev db exOwn exKnowing ([] ++ [⟨exListMessage, u, [p, p]⟩]) [] _ :=
    .publish (.start rfl rfl (fun _ _ => rfl)) (.nodeSend _ _ _) api₁ (by decide +kernel) (by decide +kernel) (by decide +kernel)
      (by intro g v hv; rw [hh₁ g v hv]; exact ⟨rfl, by unfold Fits; decide +kernel⟩) rfl
  obtain ⟨o₂, api₂, hh₂⟩ := ex_sends (b := .dev) (db := db) (n := { exKnowing.setHost 0 ⟨a', [], []⟩ with flying := [] ++ [p, p] })
    a' [] [] rfl (Node.updateTid_transport _ _) exInform₂ [p'] (by
      intro q hq
      rw [List.mem_singleton.mp hq]; exact ⟨rfl, rfl⟩)
  have c₂ : Chatter .dev db exOwn exKnowing (([] ++ [⟨exListMessage, u, [p, p]⟩]) ++ [⟨exInform₂, u', [p']⟩]) [] _ :=
    .publish c₁ (.nodeSend _ _ _) api₂ (by decide +kernel) (by decide +kernel) (by decide +kernel)
      (by intro g v hv; rw [hh₂ g v hv]; exact ⟨rfl, by unfold Fits; decide +kernel⟩) rfl
  obtain ⟨tr, n, hrun, hend⟩ := (C84_progress (S := Nat) .dev db exOwn).2.2 _
  have c₃ := chatter_prompt c₂ hrun
  have hnd : ∀ j, ((exKnowing.hosts j).remotes.map RemoteNode.addr).Nodup := by
    intro j
    by_cases h0 : j = 0
    · subst h0; exact List.nodup_nil
    by_cases h1 : j = 1
    · subst h1
      show [(⟨.v4 0xC0A80001, 3610⟩ : SocketAddr), ⟨.v4 0xC0A80009, 3610⟩].Nodup
      decide
    · simp only [exKnowing, if_neg h0, if_neg h1]; exact List.nodup_nil
  have hheard : ∃ e, HeardFrom exKnowing (([] ++ [⟨exListMessage, u, [p, p]⟩]) ++ [⟨exInform₂, u', [p']⟩]) 1 ⟨.v4 0xC0A80001, 3610⟩ e :=
    ⟨⟨exListMessage, u, [p, p]⟩, by simp, by decide +kernel, p, by simp, rfl, rfl, ⟨.v4 0xC0A80002, [.node, .controller], .running⟩, rfl, rfl, by simp⟩
  have hsame : ∀ e, HeardFrom exKnowing (([] ++ [⟨exListMessage, u, [p, p]⟩]) ++ [⟨exInform₂, u', [p']⟩]) 1 ⟨.v4 0xC0A80001, 3610⟩ e →
      announcedCodes e.message = [0x029001] := by
    rintro e ⟨he, hm, _⟩
    simp only [List.nil_append, List.cons_append, List.mem_cons, List.not_mem_nil, or_false] at he
    rcases he with rfl | rfl
    · decide +kernel
    · exact absurd hm (by decide +kernel)
  obtain ⟨r, h1, h2, _, h4⟩ := C101_at_once .dev .ascending db hdb exOwn _ n _ _ c₃ hend hnd 1 _ _ hheard hsame
  exact ⟨db, n, _, _, r, hdb, c₃, hend, rfl, hnd, hheard, hsame, h1, h2, h4⟩

end Uecho
