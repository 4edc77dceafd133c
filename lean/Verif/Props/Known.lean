import Verif.Spec.Known
import Verif.Props.Told
/-!
# What controllers learn from notifications: C99
-/
namespace Uecho
open Spec
variable {S : Type}

/-- The controllers' lists, as far as the copies of the message have been processed. -/
structure KnownNet (u : Message) (n₁ n : Net S) : Prop where
  lists : ∀ j, ∃ l, (n.hosts j).remotes =
      (n₁.hosts j).remotes.filter (fun r => decide (r.addr ∉ l.map RemoteNode.addr)) ++ l ∧
    (l.map RemoteNode.addr).Nodup ∧ (∀ r ∈ l, r.objects.map (fun o => o.code.toNat) = announcedCodes u ++ [0x0EF001]) ∧
    (∀ a ∈ l.map RemoteNode.addr, Hears n₁ j a) ∧
    ∀ a, Hears n₁ j a → a ∈ l.map RemoteNode.addr ∨ Hears n j a ∨
      ∃ q ∈ n.busy, q.host = j ∧ q.msg.sender = a ∧ ObserverRef.controller ∈ q.todo
  fly : ∀ p ∈ n.flying, p ∈ n₁.flying
  busy : ∀ q ∈ n.busy, ObserverRef.controller ∈ q.todo → Hears n₁ q.host q.msg.sender

/-- Only the controller changes the list of remote nodes. -/
theorem invoke_remotes {b : Build} {db : Database} {h h' : Host S} {m : Message} {env : CallEnv} {o : ObserverRef}
    {outs : List Out} (ho : o ≠ .controller) (hi : h.invoke b db env m o = .ok (h', outs)) : h'.remotes = h.remotes := by
  cases o with
  | controller => exact absurd rfl ho
  | device => simp only [Host.invoke, Res.ok.injEq, Prod.mk.injEq] at hi; rw [← hi.1]
  | user k => simp only [Host.invoke, Res.ok.injEq, Prod.mk.injEq] at hi; rw [← hi.1]
  | node =>
    simp only [Host.invoke] at hi
    obtain ⟨r, hr, hi⟩ := Res.bind_eq_ok.mp hi
    simp only [Res.pure_eq, Res.ok.injEq, Prod.mk.injEq] at hi
    rw [← hi.1]

theorem eraseP_addr {l : List RemoteNode} (hn : (l.map RemoteNode.addr).Nodup) (r : RemoteNode) :
    l.eraseP (fun f => f.eq r) = l.filter (fun x => decide (x.addr ≠ r.addr)) := by
  induction l with
  | nil => rfl
  | cons x l ih =>
    simp only [List.map_cons, List.nodup_cons] at hn
    rw [List.eraseP_cons, List.filter_cons]
    by_cases hx : x.addr = r.addr
    · have h1 : x.eq r = true := by simp [RemoteNode.eq, hx]
      rw [h1, cond_true, if_neg (by simp [hx])]
      symm
      rw [List.filter_eq_self]
      intro y hy
      apply decide_eq_true
      intro h
      exact hn.1 (List.mem_map.mpr ⟨y, hy, h.trans hx.symm⟩)
    · have h1 : x.eq r = false := by simp [RemoteNode.eq, hx]
      rw [h1, cond_false, if_pos (by simp [hx]), ih hn.2]

theorem told_profile_iff {u q : Message} (h : ToldCopy u q) : IsProfileMessage q ↔ IsProfileMessage u := by
  have g1 : q.esvByte = u.esvByte := by have := congrArg Frame.esv h.1; exact this
  have g2 : q.deoj = u.deoj := UInt32.toNat.inj (by have := congrArg Frame.deoj h.1; exact this)
  unfold IsProfileMessage; rw [g1, g2]

/-- The message received says the same about the node as the message sent. -/
theorem told_profile {u q : Message} (h : ToldCopy u q) (hm : IsProfileMessage u) :
    IsProfileMessage q ∧ announcedCodes q = announcedCodes u := by
  obtain ⟨h1, _, _, _⟩ := h
  have g1 : q.esvByte = u.esvByte := by have := congrArg Frame.esv h1; exact this
  have g2 : q.deoj = u.deoj := UInt32.toNat.inj (by have := congrArg Frame.deoj h1; exact this)
  have hw : isWriteReadByte u.esvByte = false := by rcases hm.1 with h | h <;> rw [h] <;> rfl
  have hb : (frameOf q).body = (frameOf u).body := by rw [h1]
  unfold frameOf at hb
  rw [g1, hw] at hb
  simp only [Bool.false_eq_true, if_false, Body.single.injEq] at hb
  refine ⟨by unfold IsProfileMessage; rw [g1, g2]; exact hm, ?_⟩
  unfold announcedCodes; rw [hb]

theorem known_step {b : Build} {ω₀ : HashOrder} {db : Database} (hdb : standardDb b ω₀ = .ok db) {own : IpAddr → Option Nat}
    {u : Message} (hfit : Fits u) (hfmt : u.isFormat1 = true) (hresp : isResponseByte u.esvByte = true)
    (h5 : u.esvByte ≠ 0x5E) (hm : IsProfileMessage u) {n₁ n n' : Net S} {tr : List (Nat × Out)} {k : Nat} {outs : List Out}
    (hnd : ∀ j, ((n₁.hosts j).remotes.map RemoteNode.addr).Nodup)
    (inv : ToldInv u n₁ tr n) (kn : KnownNet u n₁ n) (h : Reliable b db own n k outs n') : KnownNet u n₁ n' := by
  have hthr : ∀ j, (n.hosts j).threads = (n₁.hosts j).threads := by
    intro j; unfold Host.threads; rw [inv.transport j]
  cases h with
  | receive l₁ l₂ p s hf hs hrun hidle =>
    have hp : p ∈ n.flying := by rw [hf]; simp
    obtain ⟨q, hq, hc, hsrc⟩ := told_received hfit hfmt h5 p.src
    rw [← inv.fly p hp] at hq
    have hx : n.received p s (l₁ ++ l₂) =
        { n with flying := l₁ ++ l₂, busy := n.busy ++ [⟨p.host, p.srv, q, s.observers⟩] } := by
      unfold Net.received; rw [hq]
    rw [hx]
    refine ⟨fun j => ?_, fun p' hp' => kn.fly p' (mem_of_split hf hp'), ?_⟩
    · obtain ⟨l, g1, g2, g3, g4, g5⟩ := kn.lists j
      refine ⟨l, g1, g2, g3, g4, fun a ha => ?_⟩
      rcases g5 a ha with h | ⟨p', hp', k1, k2, s', k3, k4, k5⟩ | ⟨q', hq', k1, k2, k3⟩
      · exact Or.inl h
      · rw [hf] at hp'
        by_cases hpp : p' = p
        · subst hpp
          refine Or.inr (Or.inr ⟨⟨p'.host, p'.srv, q, s.observers⟩, by simp, k1, hsrc.trans k2, ?_⟩)
          rw [← k1, hs] at k3
          rw [Option.some.inj k3]; exact k5
        · refine Or.inr (Or.inl ⟨p', ?_, k1, k2, s', k3, k4, k5⟩)
          rcases List.mem_append.mp hp' with h | h
          · exact List.mem_append_left _ h
          · exact List.mem_append_right _ ((List.mem_cons.mp h).resolve_left hpp)
      · exact Or.inr (Or.inr ⟨q', List.mem_append_left _ hq', k1, k2, k3⟩)
    · intro q' hq' hc'
      rcases List.mem_append.mp hq' with hq' | hq'
      · exact kn.busy q' hq' hc'
      · rw [List.mem_singleton.mp hq'] at hc' ⊢
        exact ⟨p, kn.fly p hp, rfl, hsrc.symm, s, by rw [← hthr]; exact hs, hrun, hc'⟩
  | drop l₁ l₂ p hf hd =>
    refine ⟨fun j => ?_, fun p' hp' => kn.fly p' (mem_of_split hf hp'), kn.busy⟩
    obtain ⟨l, g1, g2, g3, g4, g5⟩ := kn.lists j
    refine ⟨l, g1, g2, g3, g4, fun a ha => ?_⟩
    rcases g5 a ha with h | ⟨p', hp', k1, k2, s', k3, k4, k5⟩ | h
    · exact Or.inl h
    · refine Or.inr (Or.inl ⟨p', ?_, k1, k2, s', k3, k4, k5⟩)
      rw [hf] at hp'
      rcases List.mem_append.mp hp' with h | h
      · exact List.mem_append_left _ h
      · rcases List.mem_cons.mp h with rfl | h
        · exact absurd ⟨s', by rw [k1]; exact k3, k4⟩ hd
        · exact List.mem_append_right _ h
    · exact Or.inr (Or.inr h)
  | done l₁ l₂ q hb ht =>
    refine ⟨fun j => ?_, kn.fly, fun q' hq' => kn.busy q' (mem_of_split hb hq')⟩
    obtain ⟨l, g1, g2, g3, g4, g5⟩ := kn.lists j
    refine ⟨l, g1, g2, g3, g4, fun a ha => ?_⟩
    rcases g5 a ha with h | h | ⟨q', hq', k1, k2, k3⟩
    · exact Or.inl h
    · exact Or.inr (Or.inl h)
    · refine Or.inr (Or.inr ⟨q', ?_, k1, k2, k3⟩)
      rw [hb] at hq'
      rcases List.mem_append.mp hq' with h | h
      · exact List.mem_append_left _ h
      · rcases List.mem_cons.mp h with rfl | h
        · rw [ht] at k3; simp at k3
        · exact List.mem_append_right _ h
  | skip l₁ l₂ q o os hb ht hpo hm => rw [inv.sound] at hpo; cases hpo
  | infected l₁ l₂ q o os hb ht hpo => rw [inv.sound] at hpo; cases hpo
  | die l₁ l₂ q o os ev hb ht hpo hu hfree hok hinv =>
    exfalso
    have hc := inv.busy q (by rw [hb]; simp)
    have he : q.msg.esvByte = u.esvByte := congrArg Frame.esv hc.1
    obtain ⟨h', outs', g, _⟩ := told_invoke (h := n.hosts q.host) hdb hc.2.1 (by rw [he]; exact hresp) (by rw [he]; exact h5) hu o
    rw [hinv] at g; cases g
  | call l₁ l₂ q o os ev h' outs ps hb ht hpo hu hfree hok hinv hps =>
    have hq : q ∈ n.busy := by rw [hb]; simp
    have hc := inv.busy q hq
    have he : q.msg.esvByte = u.esvByte := congrArg Frame.esv hc.1
    obtain ⟨h'', outs', g1, g2, _, gt, _⟩ := told_invoke (h := n.hosts q.host) hdb hc.2.1 (by rw [he]; exact hresp)
      (by rw [he]; exact h5) hu o
    rw [hinv] at g1
    simp only [Res.ok.injEq, Prod.mk.injEq] at g1
    obtain ⟨rfl, rfl⟩ := g1
    have hnil : ps = [] := by
      cases ps with
      | nil => rfl
      | cons p ps =>
        obtain ⟨t, h, _⟩ := hps.1 p List.mem_cons_self
        have := mem_txs.mp h; rw [g2] at this; simp at this
    subst hnil
    rw [List.append_nil]
    have hhost : ∀ j, (n.setHost q.host h').hosts j = if j = q.host then h' else n.hosts j := fun j => rfl
    have hthr' : ∀ j, ((n.setHost q.host h').hosts j).threads = (n.hosts j).threads := by
      intro j; rw [hhost]
      split
      · rename_i hj; unfold Host.threads; rw [gt, hj]
      · rfl
    have hears : ∀ j a, Hears n j a → Hears { n.setHost q.host h' with
        flying := n.flying, busy := l₁ ++ { q with todo := os } :: l₂ } j a := by
      rintro j a ⟨p, k1, k2, k3, s, k4, k5, k6⟩
      exact ⟨p, k1, k2, k3, s, by rw [← hthr' j] at k4; exact k4, k5, k6⟩
    -- threads that still have to call the controller
    have still : ∀ j a, (∃ q' ∈ n.busy, q'.host = j ∧ q'.msg.sender = a ∧ ObserverRef.controller ∈ q'.todo) →
        (∃ q' ∈ l₁ ++ { q with todo := os } :: l₂, q'.host = j ∧ q'.msg.sender = a ∧ ObserverRef.controller ∈ q'.todo) ∨
        (o = .controller ∧ q.host = j ∧ q.msg.sender = a) := by
      rintro j a ⟨q', hq', k1, k2, k3⟩
      rw [hb] at hq'
      rcases List.mem_append.mp hq' with h | h
      · exact Or.inl ⟨q', List.mem_append_left _ h, k1, k2, k3⟩
      · rcases List.mem_cons.mp h with rfl | h
        · rw [ht] at k3
          rcases List.mem_cons.mp k3 with k3 | k3
          · exact Or.inr ⟨k3.symm, k1, k2⟩
          · exact Or.inl ⟨{ q' with todo := os }, by simp, k1, k2, k3⟩
        · exact Or.inl ⟨q', by simp [h], k1, k2, k3⟩
    refine ⟨fun j => ?_, kn.fly, ?_⟩
    · obtain ⟨l, e1, e2, e3, e4, e5⟩ := kn.lists j
      show ∃ l, ((n.setHost q.host h').hosts j).remotes = _ ∧ _
      rw [hhost]
      by_cases hj : j = q.host
      · rw [if_pos hj]
        by_cases ho : o = .controller
        · subst ho
          obtain ⟨hpm, hcodes⟩ := told_profile hc hm
          obtain ⟨r, r1, r2, _⟩ := observeController_profile hdb ev.ω ev.uuid hu (n.hosts q.host).remotes hpm
          have hrem : h'.remotes = replaceRemoteNode (n.hosts q.host).remotes r := by
            simp only [Host.invoke, hfree.2, r1, Res.bind_ok, Res.pure_eq, Res.ok.injEq, Prod.mk.injEq] at hinv
            rw [← hinv.1]
          have ra : r.addr = q.msg.sender := congrArg Prod.fst r2
          have rc : r.objects.map (fun o => o.code.toNat) = announcedCodes u ++ [0x0EF001] := by
            rw [← hcodes]; exact congrArg Prod.snd r2
          have hnod : (((n.hosts q.host).remotes).map RemoteNode.addr).Nodup := by
            rw [← hj, e1, List.map_append, List.nodup_append]
            refine ⟨(hnd j).sublist (List.filter_sublist.map _), e2, ?_⟩
            intro a ha a' ha' haa
            subst haa
            obtain ⟨x, hx, rfl⟩ := List.mem_map.mp ha
            exact (of_decide_eq_true (List.mem_filter.mp hx).2) ha'
          have hmem : ∀ a, a ∈ (l.filter (fun x => decide (x.addr ≠ r.addr)) ++ [r]).map RemoteNode.addr ↔
              a ∈ l.map RemoteNode.addr ∨ a = r.addr := by
            intro a
            simp only [List.map_append, List.mem_append, List.mem_map, List.mem_filter, decide_eq_true_eq, List.map_cons,
              List.map_nil, List.mem_singleton]
            constructor
            · rintro (⟨x, ⟨hx, _⟩, rfl⟩ | h)
              · exact Or.inl ⟨x, hx, rfl⟩
              · exact Or.inr h
            · rintro (⟨x, hx, rfl⟩ | h)
              · by_cases hxa : x.addr = r.addr
                · exact Or.inr hxa
                · exact Or.inl ⟨x, ⟨hx, hxa⟩, rfl⟩
              · exact Or.inr h
          refine ⟨l.filter (fun x => decide (x.addr ≠ r.addr)) ++ [r], ?_, ?_, ?_, ?_, ?_⟩
          · rw [hrem]
            unfold replaceRemoteNode
            rw [eraseP_addr hnod, ← hj, e1, List.filter_append, List.filter_filter, List.append_assoc]
            congr 1
            apply List.filter_congr
            intro x _
            rw [Bool.eq_iff_iff]
            simp only [Bool.and_eq_true, decide_eq_true_eq, hmem, not_or]
            exact And.comm
          · rw [List.map_append, List.nodup_append]
            refine ⟨e2.sublist (List.filter_sublist.map _), by simp, ?_⟩
            intro a ha a' ha' haa
            obtain ⟨x, hx, rfl⟩ := List.mem_map.mp ha
            have h1 := of_decide_eq_true (List.mem_filter.mp hx).2
            simp only [List.map_cons, List.map_nil, List.mem_singleton] at ha'
            exact h1 (haa.trans ha')
          · intro x hx
            rcases List.mem_append.mp hx with hx | hx
            · exact e3 x (List.mem_filter.mp hx).1
            · rw [List.mem_singleton.mp hx]; exact rc
          · intro a ha
            rcases (hmem a).mp ha with h | h
            · exact e4 a h
            · rw [h, ra, hj]
              exact kn.busy q hq (by rw [ht]; exact List.mem_cons_self)
          · intro a ha
            rcases e5 a ha with h | h | h
            · exact Or.inl ((hmem a).mpr (Or.inl h))
            · exact Or.inr (Or.inl (hears j a h))
            · rcases still j a h with h | ⟨_, _, h⟩
              · exact Or.inr (Or.inr h)
              · exact Or.inl ((hmem a).mpr (Or.inr (h.symm.trans ra.symm)))
        · refine ⟨l, by rw [invoke_remotes ho hinv, ← hj]; exact e1, e2, e3, e4, fun a ha => ?_⟩
          rcases e5 a ha with h | h | h
          · exact Or.inl h
          · exact Or.inr (Or.inl (hears j a h))
          · rcases still j a h with h | ⟨h, _⟩
            · exact Or.inr (Or.inr h)
            · exact absurd h ho
      · rw [if_neg hj]
        refine ⟨l, e1, e2, e3, e4, fun a ha => ?_⟩
        rcases e5 a ha with h | h | h
        · exact Or.inl h
        · exact Or.inr (Or.inl (hears j a h))
        · rcases still j a h with h | ⟨_, h, _⟩
          · exact Or.inr (Or.inr h)
          · exact absurd h.symm hj
    · intro q' hq' hc'
      rcases List.mem_append.mp hq' with h | h
      · exact kn.busy q' (by rw [hb]; simp [h]) hc'
      · rcases List.mem_cons.mp h with rfl | h
        · exact kn.busy q hq (by rw [ht]; exact List.mem_cons_of_mem _ hc')
        · exact kn.busy q' (by rw [hb]; simp [h]) hc'

theorem known_run {b : Build} {ω₀ : HashOrder} {db : Database} (hdb : standardDb b ω₀ = .ok db) {own : IpAddr → Option Nat}
    {u : Message} (hfit : Fits u) (hfmt : u.isFormat1 = true) (hresp : isResponseByte u.esvByte = true)
    (h5 : u.esvByte ≠ 0x5E) (hm : IsProfileMessage u) {n₁ n : Net S} {tr : List (Nat × Out)}
    (hnd : ∀ j, ((n₁.hosts j).remotes.map RemoteNode.addr).Nodup) (hbusy : n₁.busy = []) (h0 : ToldInv u n₁ [] n₁)
    (h : Prompt b db own n₁ tr n) : KnownNet u n₁ n := by
  induction h with
  | refl =>
    refine ⟨fun j => ⟨[], by simpa using (List.filter_eq_self.mpr (fun _ _ => rfl)).symm, by simp, by simp, by simp, fun a ha => Or.inr (Or.inl ha)⟩, fun p hp => hp, ?_⟩
    rw [hbusy]; simp
  | step h h' _ ih => exact known_step hdb hfit hfmt hresp h5 hm hnd (told_run hdb hfit hfmt hresp h5 h0 h) ih h'

/-- Messages that do not describe a node leave the lists alone. -/
theorem unknown_run {b : Build} {ω₀ : HashOrder} {db : Database} (hdb : standardDb b ω₀ = .ok db) {own : IpAddr → Option Nat}
    {u : Message} (hfit : Fits u) (hfmt : u.isFormat1 = true) (hresp : isResponseByte u.esvByte = true)
    (h5 : u.esvByte ≠ 0x5E) (hm : ¬ IsProfileMessage u) {n₁ n : Net S} {tr : List (Nat × Out)} (h0 : ToldInv u n₁ [] n₁)
    (h : Prompt b db own n₁ tr n) : ∀ j, (n.hosts j).remotes = (n₁.hosts j).remotes := by
  induction h with
  | refl => exact fun _ => rfl
  | step h h' hr ih =>
    rename_i x y tr' k outs
    have inv := told_run hdb hfit hfmt hresp h5 h0 h
    intro j
    refine Eq.trans ?_ (ih j)
    cases h' with
    | receive l₁ l₂ p s hf hs hrun hidle =>
      have hp : p ∈ x.flying := by rw [hf]; simp
      obtain ⟨q, hq, hc, hsrc⟩ := told_received hfit hfmt h5 p.src
      rw [← inv.fly p hp] at hq
      unfold Net.received; rw [hq]
    | drop l₁ l₂ p hf hd => rfl
    | done l₁ l₂ q hb ht => rfl
    | skip l₁ l₂ q o os hb ht hpo hm => rfl
    | infected l₁ l₂ q o os hb ht hpo => rw [inv.sound] at hpo; cases hpo
    | die l₁ l₂ q o os ev hb ht hpo hu hfree hok hinv =>
      exfalso
      have hc := inv.busy q (by rw [hb]; simp)
      have he : q.msg.esvByte = u.esvByte := congrArg Frame.esv hc.1
      obtain ⟨h', outs', g, _⟩ := told_invoke (h := x.hosts q.host) hdb hc.2.1 (by rw [he]; exact hresp) (by rw [he]; exact h5) hu o
      rw [hinv] at g; cases g
    | call l₁ l₂ q o os ev h' outs ps hb ht hpo hu hfree hok hinv hps =>
      show ((x.setHost q.host h').hosts j).remotes = _
      unfold Net.setHost
      simp only []
      split
      · rename_i hj
        subst hj
        by_cases ho : o = .controller
        · subst ho
          have hc := inv.busy q (by rw [hb]; simp)
          have hn : ¬ IsProfileMessage q.msg := fun hx => hm ((told_profile_iff hc).mp hx)
          simp only [Host.invoke, observeController_other b db ev.ω ev.uuid ev.ctrlFree (x.hosts q.host).remotes (Or.inr hn),
            Res.bind_ok, Res.pure_eq, Res.ok.injEq, Prod.mk.injEq] at hinv
          rw [← hinv.1]
        · exact invoke_remotes ho hinv
      · rfl

theorem publishes_remotes {b : Build} {db : Database} {n₀ n₁ : Net S} {i : Nat} {m : Message} {outs : List Out} {op : HostOp S}
    (hp : Publishes op m) (ha : Net.Api b db n₀ i op outs n₁) (j : Nat) :
    (n₁.hosts j).remotes = (n₀.hosts j).remotes := by
  cases ha with
  | mk h' _ ps hapi hstep hps =>
    have hh : h'.remotes = (n₀.hosts i).remotes := by
      cases hp with
      | notify m ok =>
        simp only [Host.step, Node.step, Res.bind_ok, Res.pure_eq, Res.ok.injEq, Prod.mk.injEq] at hstep
        rw [← hstep.1]
      | announce obj prop ok =>
        simp only [Host.step, Node.step, Res.bind_ok, Res.pure_eq, Res.ok.injEq, Prod.mk.injEq] at hstep
        rw [← hstep.1]
      | nodeSend to m ok =>
        simp only [Host.step, Node.step, Res.bind_ok, Res.pure_eq, Res.ok.injEq, Prod.mk.injEq] at hstep
        rw [← hstep.1]
      | send r m free ok =>
        simp only [Host.step, Host.sendMessage, Res.ok.injEq] at hstep
        cases free with
        | false =>
          simp only [Bool.not_false, if_true, Prod.mk.injEq] at hstep
          rw [← hstep.1]
        | true =>
          simp only [Bool.not_true, Bool.false_eq_true, if_false, Prod.mk.injEq] at hstep
          rw [← hstep.1]
    show ((n₀.setHost i h').hosts j).remotes = _
    unfold Net.setHost
    simp only []
    split
    · rename_i hj; rw [hj]; exact hh
    · rfl

theorem prompt_idle {b : Build} {db : Database} {own : IpAddr → Option Nat} {n₁ n : Net S} {tr : List (Nat × Out)}
    (hf : n₁.flying = []) (hb : n₁.busy = []) (h : Prompt b db own n₁ tr n) : n = n₁ ∧ tr = [] := by
  induction h with
  | refl => exact ⟨rfl, rfl⟩
  | step _ h' _ ih =>
    obtain ⟨rfl, _⟩ := ih
    exfalso
    cases h' with
    | receive l₁ l₂ p s h => rw [hf] at h; simp at h
    | drop l₁ l₂ p h => rw [hf] at h; simp at h
    | call l₁ l₂ q o os e h' outs ps h => rw [hb] at h; simp at h
    | die l₁ l₂ q o os e h => rw [hb] at h; simp at h
    | infected l₁ l₂ q o os h => rw [hb] at h; simp at h
    | skip l₁ l₂ q o os h => rw [hb] at h; simp at h
    | done l₁ l₂ q h => rw [hb] at h; simp at h

/-- The state of the network right after the message was sent. -/
theorem tells_start {b : Build} {db : Database} {n₀ n₁ : Net S} {i : Nat} {m : Message} {outs : List Out}
    (ha : Tells b db n₀ i m outs n₁) :
    n₁.busy = [] ∧ (∀ j, (n₁.hosts j).remotes = (n₀.hosts j).remotes) ∧
    (n₁.flying = [] ∨ ∃ u, Fits u ∧ u.isFormat1 = true ∧ u.esvByte = m.esvByte ∧ u.deoj = m.deoj ∧
      u.properties = m.properties ∧ ToldInv u n₁ [] n₁) := by
  obtain ⟨op, hp, hapi⟩ := ha.call
  obtain ⟨s1, s2, s3, s4, s5⟩ := publishes_start hp hapi
  obtain ⟨_, u1, u3, u5, _, _, u4, _⟩ := updateTid_fields (n₀.hosts i).node m
  generalize ((n₀.hosts i).node.updateTid m).1 = u at *
  refine ⟨by rw [s3]; exact ha.busy, publishes_remotes hp hapi, ?_⟩
  by_cases hout : outs = []
  · left
    cases hfl : n₁.flying with
    | nil => rfl
    | cons p ps =>
      rcases s5 p (by rw [hfl]; simp) with h | ⟨t, h, _⟩
      · rw [ha.flying] at h; simp at h
      · rw [hout] at h; simp at h
  · right
    obtain ⟨g, hg⟩ := s1.resolve_left hout
    have hfu : Fits u := ha.fits g u hg
    refine ⟨u, hfu, by rw [u4]; exact ha.format, u3, u1, u5, ?_⟩
    · refine ⟨fun _ => rfl, fun _ => ⟨rfl, rfl, rfl⟩, by rw [s4]; exact ha.sound, ?_, by rw [s3, ha.busy]; simp, by simp, ?_⟩
      · intro p hp
        rcases s5 p hp with h | ⟨t, h1, h2⟩
        · rw [ha.flying] at h; simp at h
        · rw [h2]; exact s2 t h1
      · intro j
        refine ⟨[], by simp, by simp, fun x => ?_⟩
        rw [s3, ha.busy]
        simp [busyTell]

/-- C98, what it leaves behind: no observer panics on the way, and every node keeps its sockets and registrations. The network
is at rest and fit for the next message. -/
theorem C98_unharmed (b : Build) (ω₀ : HashOrder) (db : Database) (hdb : standardDb b ω₀ = .ok db) (own : IpAddr → Option Nat)
    (n₀ n₁ n₂ : Net S) (i : Nat) (m : Message) (outs : List Out) (ha : Tells b db n₀ i m outs n₁) (tr : List (Nat × Out))
    (hrun : Prompt b db own n₁ tr n₂) :
    (∀ k o, n₂.poisoned k o = false) ∧ ∀ j, (n₂.hosts j).node.transport = (n₁.hosts j).node.transport := by
  obtain ⟨hb, _, h⟩ := tells_start ha
  rcases h with hf | ⟨u, h1, h2, h3, h4, h5, inv0⟩
  · obtain ⟨rfl, _⟩ := prompt_idle hf hb hrun
    obtain ⟨op, hp, hapi⟩ := ha.call
    obtain ⟨_, _, _, s4, _⟩ := publishes_start hp hapi
    exact ⟨by rw [s4]; exact ha.sound, fun _ => rfl⟩
  · have inv := told_run hdb h1 h2 (by rw [h3]; exact ha.service) (by rw [h3]; exact ha.not5E) inv0 hrun
    exact ⟨inv.sound, inv.transport⟩

/-! ## C99 -/

/-- C99: a message that describes a node (a read response or notification for the node profile) which an application sends
out on a network at rest is what every controller reached knows afterwards: once the network is at rest again, whatever the
interleaving of the receiver threads and however often and in whatever order copies arrive, each controller (whose list has
at most one entry per address, see C47) lists exactly one node for each address it heard the message from, with the node
profile and exactly the objects the message lists; and nothing else about its list has changed. -/
theorem C99_known (b : Build) (ω₀ : HashOrder) (db : Database) (hdb : standardDb b ω₀ = .ok db) (own : IpAddr → Option Nat)
    (n₀ n₁ n₂ : Net S) (i : Nat) (m : Message) (outs : List Out) (ha : Tells b db n₀ i m outs n₁)
    (hnd : ∀ j, ((n₀.hosts j).remotes.map RemoteNode.addr).Nodup) (hm : IsProfileMessage m) (tr : List (Nat × Out))
    (hrun : Prompt b db own n₁ tr n₂) (hend : n₂.flying = [] ∧ n₂.busy = []) (j : Nat) :
    Updated (Hears n₁ j) (announcedCodes m ++ [0x0EF001]) (n₀.hosts j).remotes (n₂.hosts j).remotes := by
  obtain ⟨hb, hr, h⟩ := tells_start ha
  rw [← hr]
  rcases h with hf | ⟨u, h1, h2, h3, h4, h5, inv0⟩
  · obtain ⟨rfl, _⟩ := prompt_idle hf hb hrun
    refine ⟨[], by simpa using (List.filter_eq_self.mpr (fun _ _ => rfl)).symm, by simp, fun a => ?_, by simp⟩
    simp only [List.map_nil, List.not_mem_nil, false_iff]
    rintro ⟨p, hp, _⟩
    rw [hf] at hp; simp at hp
  · have hc : announcedCodes u = announcedCodes m := by unfold announcedCodes; rw [h5]
    have kn := known_run hdb h1 h2 (by rw [h3]; exact ha.service) (by rw [h3]; exact ha.not5E)
      (by unfold IsProfileMessage; rw [h3, h4]; exact hm) (fun j => by rw [hr]; exact hnd j) hb inv0 hrun
    obtain ⟨l, g1, g2, g3, g4, g5⟩ := kn.lists j
    refine ⟨l, g1, g2, fun a => ⟨g4 a, fun ha => ?_⟩, by rw [← hc]; exact g3⟩
    rcases g5 a ha with h | ⟨p, hp, _⟩ | ⟨q, hq, _⟩
    · exact h
    · rw [hend.1] at hp; simp at hp
    · rw [hend.2] at hq; simp at hq

/-- C99, all other notifications and responses leave the controllers' lists alone. -/
theorem C99_others (b : Build) (ω₀ : HashOrder) (db : Database) (hdb : standardDb b ω₀ = .ok db) (own : IpAddr → Option Nat)
    (n₀ n₁ n₂ : Net S) (i : Nat) (m : Message) (outs : List Out) (ha : Tells b db n₀ i m outs n₁)
    (hm : ¬ IsProfileMessage m) (tr : List (Nat × Out)) (hrun : Prompt b db own n₁ tr n₂) (j : Nat) :
    (n₂.hosts j).remotes = (n₀.hosts j).remotes := by
  obtain ⟨hb, hr, h⟩ := tells_start ha
  rw [← hr]
  rcases h with hf | ⟨u, h1, h2, h3, h4, h5, inv0⟩
  · obtain ⟨rfl, _⟩ := prompt_idle hf hb hrun
    rfl
  · exact unknown_run hdb h1 h2 (by rw [h3]; exact ha.service) (by rw [h3]; exact ha.not5E)
      (by unfold IsProfileMessage; rw [h3, h4]; exact hm) inv0 hrun j

/-- What a node says about itself: the announcement of property 0xD6 of its node profile is a node description that lists
exactly the devices added to it. -/
theorem C99_announcement (b : Build) (ω₀ : HashOrder) (db : Database) (hdb : standardDb b ω₀ = .ok db)
    (uuid₁ uuid₂ : List UInt8) (hu₁ : uuid₁.length = 16) (hu₂ : uuid₂.length = 16) (ω : HashOrder) (app : S)
    (ops : List (Op S)) (hops : ∀ op ∈ ops, ProfileSafe op) (nd n : Node S) (outs₀ : List Out)
    (hnew : Node.new b db uuid₁ uuid₂ ω app = .ok nd) (hhist : nd.run b ops = .ok (n, outs₀))
    (hlen : (addedCodes ops).length ≤ 84) (hdev : ∀ c ∈ addedCodes ops, c ≠ profileCode)
    (np : Object) (prop : Property) (hnp : findObject n.objects profileCode = some np)
    (hprop : np.findProperty 0xD6 = some prop) :
    IsProfileMessage (Node.announceMessage np prop) ∧
      announcedCodes (Node.announceMessage np prop) = (addedCodes ops).map UInt32.toNat := by
  obtain ⟨_, hD5, hD6, _⟩ := C22_instance_lists_partial b ω₀ db hdb uuid₁ uuid₂ hu₁ hu₂ ω app ops hops nd _ outs₀ hnew hhist
    (by omega) hdev
  have hdata : prop.data = UInt8.ofNat (addedCodes ops).length :: (addedCodes ops).flatMap (fun x => be 3 x.toNat) := by
    have h := hD6.trans hD5
    unfold Node.property at h
    rw [hnp] at h
    simp only [hprop, Option.some.injEq] at h
    exact h
  have hcode : prop.code = 0xD6 := by
    obtain ⟨n₁', e1, hinv, _, _⟩ := newNode_inv hdb hu₁ hu₂ ω app
    rw [hnew] at e1
    simp only [Res.ok.injEq] at e1
    subst e1
    obtain ⟨h2, _⟩ := run_inv hinv hops hhist
    obtain ⟨p1, p2, e2, _, _⟩ := findObject_split hnp
    exact h2.keys np (by rw [e2]; simp) 0xD6 prop hprop
  have hp : (Node.announceMessage np prop).properties = [⟨0xD6, prop.data⟩] := by
    rw [← hcode]; rfl
  have hm : IsProfileMessage (Node.announceMessage np prop) :=
    ⟨Or.inr rfl, Or.inl (UInt32.toNat.inj ((C09_header_accessors (Message.new.setEsv .Notification) 0 nodeProfileCode
      .Unknown).2.2.1))⟩
  have hc : announcedCodes (Node.announceMessage np prop) = (addedCodes ops).map UInt32.toNat := by
    unfold announcedCodes
    rw [hp]
    simp only [List.flatMap_cons, List.flatMap_nil, List.append_nil]
    rw [hdata]
    unfold listedCodes
    simp only []
    have hk : (UInt8.ofNat (addedCodes ops).length).toNat = (addedCodes ops).length := by
      simp [UInt8.toNat_ofNat']; omega
    rw [if_pos ⟨trivial, by rw [hk, flatMap_be_length]; omega⟩]
    rw [objectCodes_flatMap _ (addedCodes_lt ops)]
  exact ⟨hm, hc⟩

/-- C99, for a node that announces its instance list: if the application of host `i`, whose node has at most 84 devices,
announces property 0xD6 of its node profile, every controller reached afterwards lists the node with exactly its devices and
the node profile. (The announcement made at start carries 0xD5 instead, with the consequence described in C24.) -/
theorem C99_instance_list (b : Build) (ω₀ : HashOrder) (db : Database) (hdb : standardDb b ω₀ = .ok db)
    (own : IpAddr → Option Nat) (n₀ n₁ n₂ : Net S) (i : Nat)
    -- the node of host `i`
    (uuid₁ uuid₂ : List UInt8) (hu₁ : uuid₁.length = 16) (hu₂ : uuid₂.length = 16) (ω : HashOrder) (app : S)
    (ops : List (Op S)) (hops : ∀ op ∈ ops, ProfileSafe op) (nd : Node S) (outs₀ : List Out)
    (hnew : Node.new b db uuid₁ uuid₂ ω app = .ok nd) (hhist : nd.run b ops = .ok ((n₀.hosts i).node, outs₀))
    (hlen : (addedCodes ops).length ≤ 84) (hdev : ∀ c ∈ addedCodes ops, c ≠ profileCode)
    -- the announcement
    (np : Object) (prop : Property) (hnp : findObject (n₀.hosts i).node.objects profileCode = some np)
    (hprop : np.findProperty 0xD6 = some prop)
    (outs : List Out) (ha : Tells b db n₀ i (Node.announceMessage np prop) outs n₁)
    (hnd : ∀ j, ((n₀.hosts j).remotes.map RemoteNode.addr).Nodup)
    -- what happens then
    (tr : List (Nat × Out)) (hrun : Prompt b db own n₁ tr n₂) (hend : n₂.flying = [] ∧ n₂.busy = []) (j : Nat) :
    Updated (Hears n₁ j) ((addedCodes ops).map UInt32.toNat ++ [0x0EF001]) (n₀.hosts j).remotes (n₂.hosts j).remotes := by
  obtain ⟨hm, hc⟩ := C99_announcement b ω₀ db hdb uuid₁ uuid₂ hu₁ hu₂ ω app ops hops nd _ outs₀ hnew hhist hlen hdev np prop hnp
    hprop
  rw [← hc]
  exact C99_known b ω₀ db hdb own n₀ n₁ n₂ i _ outs ha hnd hm tr hrun hend j

theorem updated_nodup {heard : SocketAddr → Prop} {codes : List Nat} {before after : List RemoteNode}
    (h : Updated heard codes before after) (hnd : (before.map RemoteNode.addr).Nodup) :
    (after.map RemoteNode.addr).Nodup := by
  obtain ⟨l, h1, h2, _, _⟩ := h
  rw [h1, List.map_append, List.nodup_append]
  refine ⟨List.Nodup.sublist (List.Sublist.map _ List.filter_sublist) hnd, h2, ?_⟩
  intro a ha c hc e
  subst e
  obtain ⟨r, hr, rfl⟩ := List.mem_map.mp ha
  have := (List.mem_filter.mp hr).2
  simp only [decide_eq_true_eq] at this
  exact this hc

theorem updated_heard {heard : SocketAddr → Prop} {codes : List Nat} {before after : List RemoteNode}
    (h : Updated heard codes before after) {a : SocketAddr} (ha : heard a) :
    ∃ r, r ∈ after ∧ r.addr = a ∧ (∀ r' ∈ after, r'.addr = a → r' = r) ∧ r.objects.map (fun o => o.code.toNat) = codes := by
  obtain ⟨l, h1, h2, h3, h4⟩ := h
  obtain ⟨r, hr, hra⟩ := List.mem_map.mp ((h3 a).mpr ha)
  refine ⟨r, by rw [h1]; simp [hr], hra, ?_, h4 r hr⟩
  intro r' hr' he
  rw [h1] at hr'
  rcases List.mem_append.mp hr' with hm | hm
  · have := (List.mem_filter.mp hm).2
    simp only [decide_eq_true_eq] at this
    exact absurd ((h3 r'.addr).mpr (by rw [he]; exact ha)) this
  · obtain ⟨k, hk, e⟩ := List.mem_iff_getElem.mp hm
    obtain ⟨k', hk', e'⟩ := List.mem_iff_getElem.mp hr
    have hkk : k = k' := by
      apply (List.getElem_inj (h₀ := by simpa using hk) (h₁ := by simpa using hk') h2).mp
      rw [List.getElem_map, List.getElem_map, e, e', he, hra]
    subst hkk
    rw [← e, e']

theorem updated_other {heard : SocketAddr → Prop} {codes : List Nat} {before after : List RemoteNode}
    (h : Updated heard codes before after) {r : RemoteNode} (ha : ¬ heard r.addr) : r ∈ after ↔ r ∈ before := by
  obtain ⟨l, h1, _, h3, _⟩ := h
  have hl : r.addr ∉ l.map RemoteNode.addr := fun h => ha ((h3 r.addr).mp h)
  rw [h1, List.mem_append, List.mem_filter]
  constructor
  · rintro (h | h)
    · exact h.1
    · exact absurd (List.mem_map.mpr ⟨r, h, rfl⟩) hl
  · intro h
    exact Or.inl ⟨h, by simpa using hl⟩

/-- C99, for any number of node descriptions sent one after the other by whatever hosts: in the end each controller lists at
most one node per address; for each address it has heard a description from, the objects of the last one heard (and the node
profile); and for all other addresses the nodes it listed before. -/
theorem C99_series (b : Build) (ω₀ : HashOrder) (db : Database) (hdb : standardDb b ω₀ = .ok db) (own : IpAddr → Option Nat)
    (n n' : Net S) (l : List (Message × Net S)) (hd : Described b db own n l n')
    (hnd : ∀ j, ((n.hosts j).remotes.map RemoteNode.addr).Nodup) (j : Nat) :
    ((n'.hosts j).remotes.map RemoteNode.addr).Nodup ∧
    (∀ pre m n₁ post a, l = pre ++ (m, n₁) :: post → Hears n₁ j a → (∀ x ∈ post, ¬ Hears x.2 j a) →
      ∃ r, r ∈ (n'.hosts j).remotes ∧ r.addr = a ∧ (∀ r' ∈ (n'.hosts j).remotes, r'.addr = a → r' = r) ∧
        r.objects.map (fun o => o.code.toNat) = announcedCodes m ++ [0x0EF001]) ∧
    ∀ r, (∀ x ∈ l, ¬ Hears x.2 j r.addr) → (r ∈ (n'.hosts j).remotes ↔ r ∈ (n.hosts j).remotes) := by
  induction hd with
  | nil n =>
    refine ⟨hnd j, ?_, fun r _ => Iff.rfl⟩
    intro pre m n₁ post a h
    simp at h
  | @cons n n₁ n₂ n' i m outs tr l tells profile run flying busy rest ih =>
    have hu : ∀ j, Updated (Hears n₁ j) (announcedCodes m ++ [0x0EF001]) (n.hosts j).remotes (n₂.hosts j).remotes := fun j =>
      C99_known b ω₀ db hdb own n n₁ n₂ i m outs tells hnd profile tr run ⟨flying, busy⟩ j
    obtain ⟨i1, i2, i3⟩ := ih (fun j => updated_nodup (hu j) (hnd j))
    refine ⟨i1, ?_, ?_⟩
    · intro pre m' n₁' post a he hh hpost
      match pre, he with
      | [], he =>
        simp only [List.nil_append, List.cons.injEq, Prod.mk.injEq] at he
        obtain ⟨⟨rfl, rfl⟩, rfl⟩ := he
        obtain ⟨r, h1, h2, h3, h4⟩ := updated_heard (hu j) hh
        refine ⟨r, (i3 r (by rw [h2]; exact hpost)).mpr h1, h2, ?_, h4⟩
        intro r' hr' hra
        exact h3 r' ((i3 r' (by rw [hra]; exact hpost)).mp hr') hra
      | x :: pre, he =>
        simp only [List.cons_append, List.cons.injEq] at he
        exact i2 pre m' n₁' post a he.2 hh hpost
    · intro r hr
      rw [i3 r (fun x hx => hr x (by simp [hx]))]
      exact updated_other (hu j) (hr (m, n₁) (by simp))

/-- A notification of an instance list with one device. -/
def exListMessage : Message := ((Message.new.setDeoj 0x0EF001).setEsv .Notification).addProperty ⟨0xD6, [1, 0x02, 0x90, 0x01]⟩

/-- A controller that lists a node at another address, and one at the address of the sender with another object. -/
def exKnower : Host Nat :=
  ⟨⟨⟨[⟨.v4 0xC0A80002, [.node, .controller], .running⟩], []⟩, [], 0, none, 0, [], [.node, .controller], 0⟩,
    [⟨⟨.v4 0xC0A80001, 3610⟩, [Object.fromCode 0x013001]⟩, ⟨⟨.v4 0xC0A80009, 3610⟩, [Object.fromCode 0x026001]⟩], []⟩

/-- Host 0 is a plain node, host 1 the controller. -/
def exKnowing : Net Nat :=
  ⟨fun i => if i = 0 then .ofNode exCaller else if i = 1 then exKnower else .ofNode { exCaller with transport := Manager.new },
    [], [], fun _ _ => false, fun _ => false⟩

/-- Non-vacuity of `C99_known`: host 0 sends an instance list of which the network delivers two copies to host 1, a controller;
the network comes to rest; the controller then lists the node of host 0 once, with the new device, and the other node as
before. -/
example : ∃ (db : Database) (n₁ n₂ : Net Nat) (outs : List Out) (tr : List (Nat × Out)),
    standardDb .dev .ascending = .ok db ∧ Tells .dev db exKnowing 0 exListMessage outs n₁ ∧
    (∀ j, ((exKnowing.hosts j).remotes.map RemoteNode.addr).Nodup) ∧ IsProfileMessage exListMessage ∧
    Prompt .dev db exOwn n₁ tr n₂ ∧ (n₂.flying = [] ∧ n₂.busy = []) ∧
    Hears n₁ 1 ⟨.v4 0xC0A80001, 3610⟩ ∧
    (n₂.hosts 1).remotes.map (fun r => (r.addr, r.objects.map (fun o => o.code.toNat))) =
      [(⟨.v4 0xC0A80009, 3610⟩, [0x026001]), (⟨.v4 0xC0A80001, 3610⟩, [0x029001, 0x0EF001])] := by
  obtain ⟨db, hdb, _⟩ := C21_builds .dev .ascending
  let a := exCaller
  let m := exListMessage
  let t : Tx := ⟨.v4 0xC0A80001, ⟨.v4 0xC0A80002, 3610⟩, (a.updateTid m).1.bytes⟩
  let p : Packet := ⟨⟨.v4 0xC0A80001, 3610⟩, 1, 0, (a.updateTid m).1.bytes⟩
  let n₁ : Net Nat := { exKnowing.setHost 0 { (Host.ofNode a) with node := (a.updateTid m).2 } with flying := [p, p] }
  have hstep : (exKnowing.hosts 0).step .dev db (.node (.send ⟨.v4 0xC0A80002, 3610⟩ m allOk)) =
      .ok ({ (Host.ofNode a) with node := (a.updateTid m).2 }, [.handed m (a.updateTid m).1, .tx t]) := by
    have h1 : ((a.updateTid m).2.transport.send allOk ⟨.v4 0xC0A80002, 3610⟩ (a.updateTid m).1).2 = [t] := by
      rw [Node.updateTid_transport]; rfl
    show (Host.ofNode a).step .dev db _ = _
    simp only [Host.step, Node.step, Node.sendMessage, Host.ofNode, h1, Res.bind_ok, Res.pure_eq, List.map_cons, List.map_nil]
  have api : Net.Api .dev db exKnowing 0 (.node (.send ⟨.v4 0xC0A80002, 3610⟩ m allOk))
      [.handed m (a.updateTid m).1, .tx t] n₁ :=
    .mk _ _ [p, p] trivial hstep (by
      intro q hq
      have hq : q = p := by simpa using hq
      rw [hq]
      exact ⟨t, by simp, rfl, rfl⟩)
  have htells : Tells .dev db exKnowing 0 exListMessage _ n₁ :=
    ⟨rfl, rfl, fun _ _ => rfl, by decide +kernel, by decide +kernel, by decide +kernel, ⟨_, .nodeSend _ _ _, api⟩, by
      intro g u hu
      have : g = m ∧ u = (a.updateTid m).1 := by simpa using hu
      rw [this.2]; unfold Fits; decide +kernel⟩
  have hnd : ∀ j, ((exKnowing.hosts j).remotes.map RemoteNode.addr).Nodup := by
    intro j
    by_cases h0 : j = 0
    · subst h0; exact List.nodup_nil
    by_cases h1 : j = 1
    · subst h1
      show [(⟨.v4 0xC0A80001, 3610⟩ : SocketAddr), ⟨.v4 0xC0A80009, 3610⟩].Nodup
      decide
    · simp only [exKnowing, if_neg h0, if_neg h1]; exact List.nodup_nil
  have hpm : IsProfileMessage exListMessage := by decide +kernel
  obtain ⟨tr, n₂, hrun, hend⟩ := (C84_progress (S := Nat) .dev db exOwn).2.2 n₁
  have hears : ∀ x, Hears n₁ 1 x ↔ x = ⟨.v4 0xC0A80001, 3610⟩ := by
    intro x
    constructor
    · rintro ⟨q, hq, _, hx, _⟩
      have hq : q = p := by simpa [n₁] using hq
      rw [← hx, hq]
    · rintro rfl
      exact ⟨p, by simp [n₁], rfl, rfl, ⟨.v4 0xC0A80002, [.node, .controller], .running⟩, rfl, rfl, by simp⟩
  refine ⟨db, n₁, n₂, _, tr, hdb, htells, hnd, hpm, hrun, hend, (hears _).mpr rfl, ?_⟩
  obtain ⟨l, h1, h2, h3, h4⟩ := C99_known .dev .ascending db hdb exOwn _ _ n₂ 0 exListMessage _ htells hnd hpm tr hrun hend 1
  have hl : ∃ r, l = [r] ∧ r.addr = ⟨.v4 0xC0A80001, 3610⟩ := by
    match l, h2, h3 with
    | [], _, h3 => simpa using (h3 ⟨.v4 0xC0A80001, 3610⟩).mpr ((hears _).mpr rfl)
    | [r], _, h3 => exact ⟨r, rfl, (hears _).mp ((h3 r.addr).mp (by simp))⟩
    | r :: r' :: l, h2, h3 =>
      have e1 := (hears _).mp ((h3 r.addr).mp (by simp))
      have e2 := (hears _).mp ((h3 r'.addr).mp (by simp))
      simp [e1, e2] at h2
  obtain ⟨r, rfl, hr⟩ := hl
  have hc : announcedCodes exListMessage ++ [0x0EF001] = [0x029001, 0x0EF001] := by decide +kernel
  have h5 := h4 r (by simp)
  rw [hc] at h5
  have h6 : (exKnowing.hosts 1).remotes =
      [⟨⟨.v4 0xC0A80001, 3610⟩, [Object.fromCode 0x013001]⟩, ⟨⟨.v4 0xC0A80009, 3610⟩, [Object.fromCode 0x026001]⟩] := rfl
  have h7 : (Object.fromCode 0x026001).code.toNat = 0x026001 := by decide +kernel
  rw [h1, h6]
  simp [hr, h5, h7]

/-- Sending the announcement of a small property to a running node's multicast group. -/
theorem announce_tells {b : Build} {db : Database} {n₀ : Net S} {i : Nat} (hfl : n₀.flying = []) (hb : n₀.busy = [])
    (hs : ∀ k o, n₀.poisoned k o = false) (k : Node S) (hk : n₀.hosts i = .ofNode k) (np : Object) (prop : Property)
    (hlen : prop.data.length ≤ 255) (a : IpAddr) (os : List ObserverRef)
    (htr : k.transport.mcast = [⟨a, os, .running⟩]) :
    ∃ (outs : List Out) (n₁ : Net S) (t : Tx), Tells b db n₀ i (Node.announceMessage np prop) outs n₁ ∧
      n₁.flying = [⟨⟨a, 3610⟩, 1, 0, t.bytes⟩] ∧ (∀ j, j ≠ i → n₁.hosts j = n₀.hosts j) := by
  have hfields := updateTid_fields k (Node.announceMessage np prop)
  obtain ⟨_, htx, hsend, _⟩ := C65_announce (S' := Nat) allOk k np prop hlen
  have hmap := hsend (htx.mpr (fun _ _ => rfl))
  rw [htr] at hmap
  obtain ⟨t, ht⟩ : ∃ t, txs (k.announceProperty allOk np prop).2.2 = [t] := by
    have := congrArg List.length hmap
    rw [List.length_map] at this
    exact List.length_eq_one_iff.mp (by simpa using this)
  rw [ht] at hmap
  simp only [List.map_cons, List.map_nil, List.cons.injEq, and_true, Prod.mk.injEq] at hmap
  have hstep : (n₀.hosts i).step b db (.node (.announceProperty np prop allOk)) =
      .ok ({ (n₀.hosts i) with node := (k.announceProperty allOk np prop).2.1 }, (k.announceProperty allOk np prop).2.2) := by
    simp only [Host.step, Node.step, hk, Host.ofNode, Res.bind_ok, Res.pure_eq]
  have api := Net.Api.mk (b := b) (db := db) (n := n₀) (i := i) (op := .node (.announceProperty np prop allOk)) _ _
    [⟨⟨a, 3610⟩, 1, 0, t.bytes⟩] trivial hstep (by
      intro p hp
      rw [List.mem_singleton.mp hp]
      exact ⟨t, mem_txs.mpr (by rw [ht]; simp), rfl, by rw [hmap.1]⟩)
  refine ⟨_, _, t, ⟨hfl, hb, hs, rfl, rfl, by show (0x73 : UInt8) ≠ 0x5E; decide, ⟨_, .announce _ _ _, api⟩, ?_⟩, ?_, ?_⟩
  · intro g u hu
    have : g = Node.announceMessage np prop ∧ u = (k.updateTid (Node.announceMessage np prop)).1 := by
      simp only [Node.announceProperty, Node.notify, List.mem_cons, Out.handed.injEq, List.mem_map, reduceCtorEq, and_false,
        exists_false, or_false] at hu
      exact hu
    rw [this.2]
    have hsz : SizesOk (k.updateTid (Node.announceMessage np prop)).1 := by
      unfold SizesOk
      rw [hfields.2.2.2.1, hfields.2.2.2.2.1, hfields.2.2.2.2.2.1]
      refine ⟨⟨show (1 : Nat) ≤ 255 by decide, ?_⟩, ⟨show (0 : Nat) ≤ 255 by decide, fun q hq => ?_⟩,
        ⟨show (0 : Nat) ≤ 255 by decide, fun q hq => ?_⟩⟩
      · intro q hq
        rw [List.mem_singleton.mp (show q ∈ [(⟨prop.code, prop.data⟩ : WProperty)] from hq)]
        exact hlen
      · exact absurd (show q ∈ ([] : List WProperty) from hq) (by simp)
      · exact absurd (show q ∈ ([] : List WProperty) from hq) (by simp)
    refine ⟨hsz, ?_⟩
    have he := Message.bytes_eq_encode (k.updateTid (Node.announceMessage np prop)).1 hfields.2.2.2.2.2.2.1
      (by rw [hfields.2.2.1]; show (0x73 : UInt8) ≠ 0x5E; decide)
    rw [he]
    unfold frameOf
    rw [hfields.2.2.1, hfields.2.2.2.1]
    rw [show (Node.announceMessage np prop).esvByte = 0x73 from rfl, if_neg (show ¬ isWriteReadByte 0x73 = true by decide)]
    show (Frame.encode ⟨_, _, _, _, .single [(⟨prop.code, prop.data⟩ : WProperty)]⟩).length ≤ 1024
    simp only [Frame.encode, List.length_append, be_length, Body.encode, encList, encProp, List.length_cons,
      List.length_nil, List.flatMap_cons, List.flatMap_nil]
    omega
  · show n₀.flying ++ _ = _
    rw [hfl]; rfl
  · intro j hj
    show (n₀.setHost i _).hosts j = _
    unfold Net.setHost
    simp only [if_neg hj]

/-- Non-vacuity of `C99_instance_list`: a node with a device is created and started and announces its instance list; the
controller at host 1 hears it, and lists the node with its device once the network is at rest. -/
example : ∃ (db : Database) (nd : Node Nat) (ops : List (Op Nat)) (n₀ n₁ n₂ : Net Nat) (outs₀ outs : List Out)
    (np : Object) (prop : Property) (tr : List (Nat × Out)),
    standardDb .dev .ascending = .ok db ∧ (∀ op ∈ ops, ProfileSafe op) ∧
    Node.new .dev db (List.replicate 16 0) (List.replicate 16 0) .ascending 0 = .ok nd ∧
    nd.run .dev ops = .ok ((n₀.hosts 0).node, outs₀) ∧ addedCodes ops = [0x029001] ∧
    findObject (n₀.hosts 0).node.objects profileCode = some np ∧ np.findProperty 0xD6 = some prop ∧
    Tells .dev db n₀ 0 (Node.announceMessage np prop) outs n₁ ∧
    (∀ j, ((n₀.hosts j).remotes.map RemoteNode.addr).Nodup) ∧ Prompt .dev db exOwn n₁ tr n₂ ∧
    (n₂.flying = [] ∧ n₂.busy = []) ∧ Hears n₁ 1 ⟨.v4 0xC0A80001, 3610⟩ ∧
    ∃ r ∈ (n₂.hosts 1).remotes, r.addr = ⟨.v4 0xC0A80001, 3610⟩ ∧
      r.objects.map (fun o => o.code.toNat) = [0x029001, 0x0EF001] := by
  obtain ⟨db, hdb, _⟩ := C21_builds .dev .ascending
  have hu : (List.replicate 16 (0 : UInt8)).length = 16 := by simp
  obtain ⟨nd, hnd, hinv, hcode, hobs, _, htr, _, htid, _⟩ := newNode_inv (S := Nat) hdb hu hu .ascending 0
  have hk : KeysOk (Object.fromCode 0x029001) := fromCode_keysOk _
  obtain ⟨hi₀, hc₀⟩ := inv_same_objects (n' := nd.addObserver .node) hinv rfl rfl
  obtain ⟨m₁, hm₁⟩ : ∃ n₁, (nd.addObserver .node).addObject .dev (Object.fromCode 0x029001) = .ok n₁ := by
    obtain ⟨np', os, ho, hc, _⟩ := hi₀.shape
    exact ⟨_, updateNodeProfile_eq .dev ({ nd.addObserver .node with objects := ((nd.addObserver .node).objects ++ [Object.fromCode 0x029001]) } : Node Nat)
      (np := np') (ds := os ++ [Object.fromCode 0x029001]) (show (nd.addObserver .node).objects ++ [_] = _ by rw [ho]; rfl) hc⟩
  have hs₁ : (nd.addObserver .node).step .dev (.addObject (Object.fromCode 0x029001)) = .ok (m₁, []) := by
    simp only [Node.step, hm₁, Res.bind_ok, Res.pure_eq]
  obtain ⟨hi₁, hc₁⟩ := step_inv (op := .addObject (Object.fromCode 0x029001)) hi₀ hk hs₁
  have hf₁ := addObject_frame hm₁
  have hcm : m₁.objects.map Object.code = [profileCode, (Object.fromCode 0x029001).code] := by
    rw [hc₁, hc₀, hcode]; rfl
  have hlm : m₁.objects.length = 2 := by have := congrArg List.length hcm; simpa using this
  obtain ⟨r₁, k, o₁, hst₁, _, ht₁⟩ := start_up hi₁ (by rw [hf₁]; exact htr) (by omega) 0xC0A80001
  have hs₂ : m₁.step .dev (.start [upIf (.v4 0xC0A80001)] [upIf (.v4 0xC0A80001)] allOk) = .ok (k, o₁) := by
    simp only [Node.step, hst₁, Res.bind_ok, Res.pure_eq]
  let ops : List (Op Nat) := [.addObserver .node, .addObject (Object.fromCode 0x029001),
      .start [upIf (.v4 0xC0A80001)] [upIf (.v4 0xC0A80001)] allOk]
  have hops : ∀ op ∈ ops, ProfileSafe op := by
    intro op hop
    simp only [ops, List.mem_cons, List.not_mem_nil, or_false] at hop
    rcases hop with rfl | rfl | rfl
    · trivial
    · exact hk
    · trivial
  have hrun : nd.run .dev ops = .ok (k, o₁) :=
    run_cons.mpr ⟨nd.addObserver .node, [], o₁, rfl, run_cons.mpr ⟨m₁, [], o₁, hs₁, run_cons.mpr ⟨k, o₁, [], hs₂, rfl, by simp⟩, rfl⟩, rfl⟩
  have hadd : addedCodes ops = [0x029001] := by decide +kernel
  have hdev : ∀ c ∈ addedCodes ops, c ≠ profileCode := by rw [hadd]; decide
  have hC22 := C22_instance_lists_partial .dev .ascending db hdb _ _ hu hu .ascending 0 ops hops nd k o₁ hnd hrun
    (by rw [hadd]; decide) hdev
  obtain ⟨np, prop, hnp, hprop, hdata⟩ : ∃ np prop, findObject k.objects profileCode = some np ∧
      np.findProperty 0xD6 = some prop ∧ prop.data.length ≤ 255 := by
    have h := hC22.2.2.1.trans hC22.2.1
    rw [hadd] at h
    unfold Node.property at h
    cases h1 : findObject k.objects profileCode with
    | none => rw [h1] at h; simp at h
    | some np =>
      rw [h1] at h
      simp only [] at h
      cases h2 : np.findProperty 0xD6 with
      | none => rw [h2] at h; simp at h
      | some prop =>
        rw [h2] at h
        simp only [Option.some.injEq] at h
        exact ⟨np, prop, rfl, h2, by rw [h]; decide⟩
  let n₀ : Net Nat := ⟨fun i => if i = 0 then .ofNode k else if i = 1 then exKnower else .ofNode { exCaller with transport := Manager.new },
    [], [], fun _ _ => false, fun _ => false⟩
  obtain ⟨outs, n₁, t, htells, hfl, hoth⟩ := announce_tells (b := .dev) (db := db) (n₀ := n₀) (i := 0) rfl rfl (fun _ _ => rfl) k rfl np prop
    hdata (.v4 0xC0A80001) m₁.observers (by rw [ht₁])
  have hnodup : ∀ j, ((n₀.hosts j).remotes.map RemoteNode.addr).Nodup := by
    intro j
    by_cases h0 : j = 0
    · subst h0; exact List.nodup_nil
    by_cases h1 : j = 1
    · subst h1
      show [(⟨.v4 0xC0A80001, 3610⟩ : SocketAddr), ⟨.v4 0xC0A80009, 3610⟩].Nodup
      decide
    · simp only [n₀, if_neg h0, if_neg h1]; exact List.nodup_nil
  obtain ⟨tr, n₂, hprompt, hend⟩ := (C84_progress (S := Nat) .dev db exOwn).2.2 n₁
  have hears : Hears n₁ 1 ⟨.v4 0xC0A80001, 3610⟩ := by
    refine ⟨⟨⟨.v4 0xC0A80001, 3610⟩, 1, 0, t.bytes⟩, by rw [hfl]; simp, rfl, rfl, ⟨.v4 0xC0A80002, [.node, .controller], .running⟩, ?_, rfl, by simp⟩
    rw [hoth 1 (by decide)]
    rfl
  obtain ⟨l, h1, _, h3, h4⟩ := C99_instance_list .dev .ascending db hdb exOwn n₀ n₁ n₂ 0 _ _ hu hu .ascending 0 ops hops nd o₁ hnd
    hrun (by rw [hadd]; decide) hdev np prop hnp hprop outs htells hnodup tr hprompt hend 1
  obtain ⟨r, hr, hra⟩ := List.mem_map.mp ((h3 _).mpr hears)
  refine ⟨db, nd, ops, n₀, n₁, n₂, o₁, outs, np, prop, tr, hdb, hops, hnd, hrun, hadd, hnp, hprop, htells, hnodup, hprompt, hend,
    hears, r, by rw [h1]; simp [hr], hra, ?_⟩
  rw [h4 r hr, hadd]
  rfl

/-- A second description, by the same node: no devices. -/
def exListNone : Message :=
  (((Message.new.setDeoj 0x0EF001).setEsv .Notification).addProperty ⟨0xD6, [0]⟩).setTid 5

/-- Non-vacuity of `C99_series`: host 0 sends an instance list that the controller at host 1 hears, and, when the network is at
rest, a second one, of which nothing arrives; the controller lists host 0 with what it heard. -/
example : ∃ (db : Database) (n n₁ n₂ n' : Net Nat) (r : RemoteNode),
    standardDb .dev .ascending = .ok db ∧ (∀ j, ((n.hosts j).remotes.map RemoteNode.addr).Nodup) ∧
    Described .dev db exOwn n [(exListMessage, n₁), (exListNone, n₂)] n' ∧ Hears n₁ 1 ⟨.v4 0xC0A80001, 3610⟩ ∧
    (¬ Hears n₂ 1 ⟨.v4 0xC0A80001, 3610⟩) ∧ r ∈ (n'.hosts 1).remotes ∧ r.addr = ⟨.v4 0xC0A80001, 3610⟩ ∧
    r.objects.map (fun o => o.code.toNat) = [0x029001, 0x0EF001] := by
  obtain ⟨db, hdb, _⟩ := C21_builds .dev .ascending
  let t : Tx := ⟨.v4 0xC0A80001, ⟨.v4 0xC0A80002, 3610⟩, (exCaller.updateTid exListMessage).1.bytes⟩
  let p : Packet := ⟨⟨.v4 0xC0A80001, 3610⟩, 1, 0, (exCaller.updateTid exListMessage).1.bytes⟩
  let n₁ : Net Nat := { exKnowing.setHost 0 { (Host.ofNode exCaller) with node := (exCaller.updateTid exListMessage).2 } with flying := [p] }
  have hstep : (exKnowing.hosts 0).step .dev db (.node (.send ⟨.v4 0xC0A80002, 3610⟩ exListMessage allOk)) =
      .ok ({ (Host.ofNode exCaller) with node := (exCaller.updateTid exListMessage).2 },
        [.handed exListMessage (exCaller.updateTid exListMessage).1, .tx t]) := by
    have h1 : ((exCaller.updateTid exListMessage).2.transport.send allOk ⟨.v4 0xC0A80002, 3610⟩
        (exCaller.updateTid exListMessage).1).2 = [t] := by
      rw [Node.updateTid_transport]; rfl
    show (Host.ofNode exCaller).step .dev db _ = _
    simp only [Host.step, Node.step, Node.sendMessage, Host.ofNode, h1, Res.bind_ok, Res.pure_eq, List.map_cons, List.map_nil]
  have api : Net.Api .dev db exKnowing 0 (.node (.send ⟨.v4 0xC0A80002, 3610⟩ exListMessage allOk))
      [.handed exListMessage (exCaller.updateTid exListMessage).1, .tx t] n₁ :=
    .mk _ _ [p] trivial hstep (by
      intro q hq
      rw [List.mem_singleton.mp hq]
      exact ⟨t, by simp, rfl, rfl⟩)
  have htells : Tells .dev db exKnowing 0 exListMessage _ n₁ :=
    ⟨rfl, rfl, fun _ _ => rfl, by decide +kernel, by decide +kernel, by decide +kernel, ⟨_, .nodeSend _ _ _, api⟩, by
      intro g u hu
      have : g = exListMessage ∧ u = (exCaller.updateTid exListMessage).1 := by simpa using hu
      rw [this.2]; unfold Fits; decide +kernel⟩
  have hnd : ∀ j, ((exKnowing.hosts j).remotes.map RemoteNode.addr).Nodup := by
    intro j
    by_cases h0 : j = 0
    · subst h0; exact List.nodup_nil
    by_cases h1 : j = 1
    · subst h1
      show [(⟨.v4 0xC0A80001, 3610⟩ : SocketAddr), ⟨.v4 0xC0A80009, 3610⟩].Nodup
      decide
    · simp only [exKnowing, if_neg h0, if_neg h1]; exact List.nodup_nil
  have hears : Hears n₁ 1 ⟨.v4 0xC0A80001, 3610⟩ :=
    ⟨p, by simp [n₁], rfl, rfl, ⟨.v4 0xC0A80002, [.node, .controller], .running⟩, rfl, rfl, by simp⟩
  obtain ⟨tr, m, hrun, hend⟩ := (C84_progress (S := Nat) .dev db exOwn).2.2 n₁
  obtain ⟨hsound, _⟩ := C98_unharmed .dev .ascending db hdb exOwn _ _ m 0 _ _ htells tr hrun
  -- the second one
  have hu2 : (m.hosts 0).node.updateTid exListNone = (exListNone, (m.hosts 0).node) := by
    rw [Node.updateTid_eq, if_neg (by decide +kernel)]
  let h' : Host Nat := { (m.hosts 0) with node := (m.hosts 0).node }
  have api2 : Net.Api .dev db m 0 (.node (.send ⟨.v4 0xC0A80002, 3610⟩ exListNone allOk))
      (.handed exListNone exListNone ::
        ((m.hosts 0).node.transport.send allOk ⟨.v4 0xC0A80002, 3610⟩ exListNone).2.map .tx)
      { m.setHost 0 h' with flying := m.flying ++ [] } :=
    .mk _ _ [] trivial (by
      simp only [Host.step, Node.step, Node.sendMessage, hu2, Res.bind_ok, Res.pure_eq, h']) (by intro q hq; exact absurd hq List.not_mem_nil)
  have htells2 : Tells .dev db m 0 exListNone _ { m.setHost 0 h' with flying := m.flying ++ [] } :=
    ⟨hend.1, hend.2, hsound, by decide +kernel, by decide +kernel, by decide +kernel, ⟨_, .nodeSend _ _ _, api2⟩, by
      intro g u hu
      have : g = exListNone ∧ u = exListNone := by simpa using hu
      rw [this.2]; unfold Fits; decide +kernel⟩
  obtain ⟨tr₂, m₂, hrun₂, hend₂⟩ := (C84_progress (S := Nat) .dev db exOwn).2.2 { m.setHost 0 h' with flying := m.flying ++ [] }
  have hD : Described .dev db exOwn exKnowing [(exListMessage, n₁), (exListNone, { m.setHost 0 h' with flying := m.flying ++ [] })] m₂ :=
    .cons htells (by decide +kernel) hrun hend.1 hend.2 (.cons htells2 (by decide +kernel) hrun₂ hend₂.1 hend₂.2 (.nil _))
  have hno : ¬ Hears { m.setHost 0 h' with flying := m.flying ++ [] } 1 ⟨.v4 0xC0A80001, 3610⟩ := by
    rintro ⟨q, hq, _⟩
    simp [hend.1] at hq
  obtain ⟨r, h1, h2, _, h4⟩ := (C99_series .dev .ascending db hdb exOwn _ _ _ hD hnd 1).2.1 [] exListMessage n₁ _ _ rfl hears
    (by intro x hx; rw [List.mem_singleton.mp hx]; exact hno)
  refine ⟨db, exKnowing, n₁, _, m₂, r, hdb, hnd, hD, hears, hno, h1, h2, ?_⟩
  rw [h4]
  decide +kernel

end Uecho
