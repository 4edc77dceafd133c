import Verif.Spec.Atomic
import Verif.Props.Exchange
import Verif.Props.History
/-!
# Remote operations take effect at one moment: C79
-/
namespace Uecho
open Spec
variable {S : Type}

/-! ## What observing one message does -/

theorem observe_serves {b : Build} {ω : HashOrder} {ok : Nat → Bool} {n n' : Node S} {msg : Message} {outs : List Out}
    (hk : ∀ o ∈ n.objects, KeysOk o) (h : n.observe b ω ok msg = .ok (n', outs)) {u : Message} (hu : u ∈ replies outs) :
    Serves n n' msg u := by
  obtain ⟨hr, _⟩ := Node.reply_cases hk h hu
  have htarget : ∃ pre dst post, Targets n msg pre dst post := by
    cases hf : findObject n.objects msg.deoj with
    | some dst =>
      obtain ⟨pre, post, h1, h2, h3⟩ := findObject_split hf
      exact ⟨pre, dst, post, h1, h2, h3⟩
    | none =>
      have := (C25_silence b ω ok n n' msg outs h (Or.inr (findObject_none_iff.mp hf))).1
      rw [this] at hu; simp at hu
  obtain ⟨pre, dst, post, ht⟩ := htarget
  have hkd : KeysOk dst := hk dst (by rw [ht.split]; simp)
  obtain ⟨copy, app, hs, _, _, hc⟩ := Node.observe_target ht hkd hr h
  rcases hc with ⟨_, hn, ho⟩ | ⟨hacc, dst', hw, hk', hcode, hc⟩
  · rw [ho, replies_handed] at hu
    have hu' : u = (Node.updateTid { n with app := app } (responseErrorMessage msg)).1 := by simpa using hu
    obtain ⟨hh, _⟩ := updateTid_header { n with app := app } msg _ _ (errorMessage_header msg hr)
    rw [← hu'] at hh
    exact .refused hh.esv (by rw [hn, Node.updateTid_objects])
  · rcases hc with ⟨_, _, rfl⟩ | ⟨svc, hsvc, hn, ho⟩
    · simp [replies, handed] at hu
    · rw [ho, replies_handed] at hu
      have hu' : u = (Node.updateTid { n with app := app, objects := pre ++ dst' :: post }
          (okMessage dst' msg svc)).1 := by simpa using hu
      obtain ⟨hh, hp1, hp2, hp3⟩ := updateTid_header
        { n with app := app, objects := pre ++ dst' :: post } msg _ _ (okMessage_header dst' msg svc)
      rw [← hu'] at hh hp1 hp2 hp3
      refine .done pre dst dst' post ht hacc.1 (by rw [hh.esv]; exact hsvc) (by rw [hn, Node.updateTid_objects]) hcode
        (fun c => by rw [hw, Node.writeLoop_attrs, Node.copyBack_attrs]) ?_ ?_ ?_ ?_ ?_ ?_
      · intro c d p hl hp
        rw [hw, Node.writeLoop_props, hl] at hp
        obtain ⟨q, _, rfl⟩ := Option.map_eq_some_iff.mp hp
        rfl
      · intro hpas c hl hm
        rw [hw, Node.writeLoop_props, hl]
        rw [afterHandlers_passive hpas, Node.copyBack_props (Object.keysOk_congr hs.symm hkd) (HashOrder.isOrder _)]
        rw [(hs c).1 hm]
        cases hd : dst.properties c with
        | none => rfl
        | some p => simp [Property.setData]
      · intro e; rw [hp1]; simp [okMessage, e]
      · intro e; rw [hp1]; simp [okMessage, e]
      · intro e; rw [hp2, hp3]; simp [okMessage, e]
      · intro e; rw [hp2, hp3]; simp [okMessage, e]

/-! ## Where the effects of an execution come from -/

/-- Everything put out in an execution was put out by one of its steps. -/
theorem traced_split {b : Build} {db : Database} {own : IpAddr → Option Nat} {rule : HostOp S → Prop} {n₀ n : Net S}
    {tr : List (Nat × Out)} (h : Traced b db own rule n₀ tr n) {p₁ p₂ : List (Nat × Out)} {x : Nat × Out}
    (hx : tr = p₁ ++ x :: p₂) : ∃ pre n₁ o₁ o₂ n₂ post,
      Passes b db own rule n₀ tr n pre n₁ x.1 (o₁ ++ x.2 :: o₂) n₂ post ∧ p₁ = pre ++ o₁.map (fun o => (x.1, o)) := by
  induction h generalizing p₂ with
  | init => simp at hx
  | @internal tr m m' i outs h hs hr ih =>
    rcases split_append hx with ⟨s, h1⟩ | ⟨s, s', h1, h2⟩
    · obtain ⟨pre, n₁, o₁, o₂, n₂, post, hp, hq⟩ := ih h1
      exact ⟨pre, n₁, o₁, o₂, n₂, post ++ outs.map (fun o => (i, o)),
        ⟨by rw [hp.trace, List.append_assoc], hp.before, hp.step, .internal hp.after hs hr⟩, hq⟩
    · obtain ⟨o₁, rest, rfl, rfl, h3⟩ := List.map_eq_append_iff.mp h2
      obtain ⟨o, o₂, rfl, rfl, rfl⟩ := List.map_eq_cons_iff.mp h3
      exact ⟨tr, m, o₁, o₂, m', [], ⟨by simp, h, Or.inl hs, .init⟩, h1⟩
  | @api tr m m' i op outs h hs hr ho hp ih =>
    rcases split_append hx with ⟨s, h1⟩ | ⟨s, s', h1, h2⟩
    · obtain ⟨pre, n₁, o₁, o₂, n₂, post, hp', hq⟩ := ih h1
      exact ⟨pre, n₁, o₁, o₂, n₂, post ++ outs.map (fun o => (i, o)),
        ⟨by rw [hp'.trace, List.append_assoc], hp'.before, hp'.step, .api hp'.after hs hr ho hp⟩, hq⟩
    · obtain ⟨o₁, rest, rfl, rfl, h3⟩ := List.map_eq_append_iff.mp h2
      obtain ⟨o, o₂, rfl, rfl, rfl⟩ := List.map_eq_cons_iff.mp h3
      exact ⟨tr, m, o₁, o₂, m', [], ⟨by simp, h, Or.inr ⟨op, hp, ho, hs⟩, .init⟩, h1⟩

/-! ## Properties stay filed under their codes -/

theorem updateObject_keys {code : UInt32} {f : Object → Object} (hf : ∀ o, KeysOk o → KeysOk (f o)) (l : List Object)
    (hl : ∀ o ∈ l, KeysOk o) : ∀ o ∈ updateObject code f l, KeysOk o := by
  induction l with
  | nil => simp [updateObject]
  | cons a l ih =>
    intro o ho
    unfold updateObject at ho
    split at ho
    · rcases List.mem_cons.mp ho with rfl | ho
      · exact hf _ (hl a (by simp))
      · exact hl o (by simp [ho])
    · rcases List.mem_cons.mp ho with rfl | ho
      · exact hl _ (by simp)
      · exact ih (fun o h => hl o (by simp [h])) o ho

theorem updateNodeProfile_keys {b : Build} {n n' : Node S} (hne : n.objects ≠ []) (hn : ∀ o ∈ n.objects, KeysOk o)
    (h : n.updateNodeProfile b = .ok n') : ∀ o ∈ n'.objects, KeysOk o := by
  unfold Node.updateNodeProfile at h
  simp only [] at h
  split at h
  · simp only [Res.ok.injEq] at h; rw [← h]; exact hn
  · rename_i np hf
    rw [nodeProfileUpdate_eq b np _ (by simpa using hne)] at h
    simp only [Res.bind_ok, Res.pure_eq, Res.ok.injEq] at h
    rw [← h]
    have hnp : np ∈ n.objects := List.mem_of_find?_eq_some hf
    exact updateObject_keys (fun _ _ => mapProperties_keysOk (fun c p => (profileProperty_code _ _ c p).1) (hn np hnp)) _ hn

theorem observe_keys {b : Build} {ω : HashOrder} {ok : Nat → Bool} {n n' : Node S} {msg : Message} {outs : List Out}
    (hk : ∀ o ∈ n.objects, KeysOk o) (h : n.observe b ω ok msg = .ok (n', outs)) : ∀ o ∈ n'.objects, KeysOk o := by
  cases hr : isRequestByte msg.esvByte with
  | false => rw [(C25_silence b ω ok n n' msg outs h (Or.inl hr)).2.2.1]; exact hk
  | true =>
    cases hf : findObject n.objects msg.deoj with
    | none => rw [(C25_silence b ω ok n n' msg outs h (Or.inr (findObject_none_iff.mp hf))).2.2.1]; exact hk
    | some dst =>
      obtain ⟨pre, post, h1, h2, h3⟩ := findObject_split hf
      have ht : Targets n msg pre dst post := ⟨h1, h2, h3⟩
      obtain ⟨copy, app, _, _, _, hc⟩ := Node.observe_target ht (hk dst (by rw [h1]; simp)) hr h
      rcases hc with ⟨_, hn, _⟩ | ⟨_, dst', _, hk', _, hc⟩
      · rw [hn, Node.updateTid_objects]; exact hk
      · have : n'.objects = pre ++ dst' :: post := by
          rcases hc with ⟨_, hn, _⟩ | ⟨_, _, hn, _⟩
          · rw [hn]
          · rw [hn, Node.updateTid_objects]
        rw [this]; rw [h1] at hk
        exact keysOk_replace hk hk'

theorem startedProperty_code (c : UInt8) (p : Property) : (startedProperty c p).code = p.code := by
  have := startedProperty_attrs c p
  exact congrArg (fun q => q.code) this
theorem stoppedProperty_code (c : UInt8) (p : Property) : (stoppedProperty c p).code = p.code := by
  have := stoppedProperty_attrs c p
  exact congrArg (fun q => q.code) this

theorem map_keys {f : UInt8 → Property → Property} (hf : ∀ c p, (f c p).code = p.code) {l : List Object}
    (hl : ∀ o ∈ l, KeysOk o) : ∀ o ∈ l.map (mapProperties f), KeysOk o := by
  intro o ho
  obtain ⟨x, hx, rfl⟩ := List.mem_map.mp ho
  exact mapProperties_keysOk hf (hl x hx)

theorem node_step_keys {b : Build} {n n' : Node S} {op : Op S} {outs : List Out} (hk : ∀ o ∈ n.objects, KeysOk o)
    (hop : Filed (.node op)) (h : n.step b op = .ok (n', outs)) : ∀ o ∈ n'.objects, KeysOk o := by
  cases op with
  | addObject o =>
    obtain ⟨r, hr, h⟩ := Res.bind_eq_ok.mp h
    simp only [Res.pure_eq, Res.ok.injEq, Prod.mk.injEq] at h
    rw [← h.1]
    unfold Node.addObject at hr
    refine updateNodeProfile_keys (by simp) ?_ hr
    intro x hx
    rcases List.mem_append.mp hx with hx | hx
    · exact hk x hx
    · rw [List.mem_singleton.mp hx]; exact hop
  | addHandler _ => simp only [Node.step, Res.ok.injEq, Prod.mk.injEq] at h; rw [← h.1]; exact hk
  | addObserver _ => simp only [Node.step, Res.ok.injEq, Prod.mk.injEq] at h; rw [← h.1]; exact hk
  | send to msg ok =>
    simp only [Node.step, Node.sendMessage, Res.ok.injEq, Prod.mk.injEq] at h
    rw [← h.1, Node.updateTid_objects]; exact hk
  | post to msg ok =>
    simp only [Node.step, Node.postMessage, Res.ok.injEq, Prod.mk.injEq] at h
    rw [← h.1]; simp only [Node.updateTid_objects]; exact hk
  | notify msg ok =>
    simp only [Node.step, Node.notify, Res.ok.injEq, Prod.mk.injEq] at h
    rw [← h.1, Node.updateTid_objects]; exact hk
  | announceProperty obj prop ok =>
    simp only [Node.step, Node.announceProperty, Node.notify, Res.ok.injEq, Prod.mk.injEq] at h
    rw [← h.1, Node.updateTid_objects]; exact hk
  | announce ok =>
    simp only [Node.step, Res.ok.injEq, Prod.mk.injEq] at h
    rw [← h.1, (announce_frame ok n).1]; exact hk
  | start menv uenv ok =>
    obtain ⟨r, hr, h⟩ := Res.bind_eq_ok.mp h
    simp only [Res.pure_eq, Res.ok.injEq, Prod.mk.injEq] at h
    rw [← h.1]
    obtain ⟨up, m, _, hc⟩ := start_result (r := r.1) (n' := r.2.1) (outs := r.2.2) hr
    rcases hc with ⟨_, _, h1, _⟩ | ⟨_, n₀, h0, _, h1, _⟩
    · rw [h1]; exact hk
    · rw [h1, (announce_frame ok n₀).1, h0]
      exact map_keys startedProperty_code hk
  | stop =>
    obtain ⟨r, hr, h⟩ := Res.bind_eq_ok.mp h
    simp only [Res.pure_eq, Res.ok.injEq, Prod.mk.injEq] at h
    rw [← h.1]
    by_cases ht : ThreadsOk n.transport
    · rw [(C42_stop n).1 ht, Res.ok.injEq] at hr
      rw [← hr]; exact map_keys stoppedProperty_code hk
    · rw [(C42_stop n).2 ht] at hr; simp at hr
  | setProperty oc c d =>
    simp only [Node.step, Res.ok.injEq, Prod.mk.injEq] at h
    rw [← h.1]
    unfold Node.setProperty
    split
    · exact hk
    · split
      · exact hk
      · exact updateObject_keys (fun o ho => Object.setPropertyData_keysOk ho _ _) _ hk
  | edit oc f =>
    simp only [Node.step, Res.ok.injEq, Prod.mk.injEq] at h
    rw [← h.1]
    exact updateObject_keys hop _ hk
  | receive msg free ω ok =>
    simp only [Node.step, Node.observeTry] at h
    split at h
    · simp only [Res.ok.injEq, Prod.mk.injEq] at h; rw [← h.1]; exact hk
    · exact observe_keys hk h

/-- The observers called by receiver threads. -/
theorem invoke_keys {b : Build} {db : Database} {e : CallEnv} {msg : Message} {h h' : Host S} {o : ObserverRef}
    {outs : List Out} (hk : ∀ x ∈ h.node.objects, KeysOk x) (hi : h.invoke b db e msg o = .ok (h', outs)) :
    ∀ x ∈ h'.node.objects, KeysOk x := by
  cases o with
  | node =>
    simp only [Host.invoke] at hi
    obtain ⟨x, hx, hi⟩ := Res.bind_eq_ok.mp hi
    simp only [Res.pure_eq, Res.ok.injEq, Prod.mk.injEq] at hi
    rw [← hi.1]
    exact node_step_keys (b := b) (op := .receive msg e.nodeFree e.ω e.ok) (outs := x.2) hk trivial hx
  | controller =>
    simp only [Host.invoke] at hi
    obtain ⟨x, hx, hi⟩ := Res.bind_eq_ok.mp hi
    simp only [Res.pure_eq, Res.ok.injEq, Prod.mk.injEq] at hi
    rw [← hi.1]; exact hk
  | device => simp only [Host.invoke, Res.ok.injEq, Prod.mk.injEq] at hi; rw [← hi.1]; exact hk
  | user k => simp only [Host.invoke, Res.ok.injEq, Prod.mk.injEq] at hi; rw [← hi.1]; exact hk

theorem traced_keys {b : Build} {db : Database} {own : IpAddr → Option Nat} {rule : HostOp S → Prop} {n₀ n : Net S}
    {tr : List (Nat × Out)} (hf : ∀ op, rule op → Filed op) (h0 : ∀ i, ∀ o ∈ (n₀.hosts i).node.objects, KeysOk o)
    (h : Traced b db own rule n₀ tr n) : ∀ i, ∀ o ∈ (n.hosts i).node.objects, KeysOk o := by
  induction h with
  | init => exact h0
  | internal _ hs hr ih =>
    have kill : ∀ i j : Nat, ∀ x : Net S, (∀ i, ∀ o ∈ (x.hosts i).node.objects, KeysOk o) →
        ∀ k, ∀ o ∈ ((x.setHost i ((x.hosts i).killThread j)).hosts k).node.objects, KeysOk o := by
      intro i j x hx k o ho
      unfold Net.setHost at ho
      simp only [] at ho
      split at ho
      · exact hx i o ho
      · exact hx k o ho
    cases hs with
    | lose l₁ l₂ p hf => exact ih
    | receive l₁ l₂ p s hf hsrv hrun hidle =>
      unfold Net.received
      split
      · exact ih
      · exact kill _ _ _ ih
      · exact ih
    | call l₁ l₂ q o os e h' outs ps hb ht hpo hu hi hps =>
      intro k x hx
      simp only [Net.setHost] at hx
      split at hx
      · exact invoke_keys (ih q.host) hi x hx
      · exact ih k x hx
    | die l₁ l₂ q o os e hb ht hpo hu hi => exact kill _ _ _ ih
    | crash l₁ l₂ q o os h' hb ht hpo hw ha =>
      obtain ⟨s, l, rfl⟩ := ha.same
      intro k o ho
      simp only [Net.setHost, Net.poison] at ho
      split at ho
      · exact ih q.host o ho
      · exact ih k o ho
    | infected l₁ l₂ q o os hb ht hpo => exact kill _ _ _ ih
    | skip l₁ l₂ q o os hb ht hpo hm => exact ih
    | done l₁ l₂ q hb ht => exact ih
  | api _ hs hr ho hp ih =>
    cases hs with
    | mk h' _ ps ha hstep hps =>
      intro k x hx
      simp only [Net.setHost] at hx
      split at hx
      · rcases host_api ha ho hstep with ⟨h1, _⟩ | ⟨nop, _, _, _, h1, hadd⟩
        · rw [h1] at hx; exact ih _ x hx
        · refine node_step_keys (ih _) ?_ h1 x hx
          rcases hadd with rfl | ⟨ha1, ha2⟩
          · exact hf _ hp
          · cases nop with
            | addObject o => exact absurd rfl (ha1 o)
            | edit oc f => exact absurd rfl (ha2 oc f)
            | _ => trivial
      · exact ih k x hx

/-! ## C79 -/

theorem moment_core (b : Build) (db : Database) (own : IpAddr → Option Nat) (n₀ n : Net S) (h0 : AtRest own n₀)
    (hk : ∀ i, ∀ o ∈ (n₀.hosts i).node.objects, KeysOk o) (tr p₁ p₂ : List (Nat × Out))
    (h : Traced b db own Disciplined n₀ tr n) (j : Nat) (a : Tx) (hx : tr = p₁ ++ (j, Out.tx a) :: p₂)
    (ha : ∃ e, a.bytes[10]? = some e ∧ isAnswerByte e = true) :
    ∃ pre n₁ outs n₂ post k r req u, Passes b db own Disciplined n₀ tr n pre n₁ j outs n₂ post ∧ Out.tx a ∈ outs ∧
      pre.length ≤ p₁.length ∧ (k, Out.tx r) ∈ pre ∧ own r.iface = some k ∧ Answers a r ∧ Reads req r.bytes ∧
      a.bytes = u.bytes ∧ Serves (n₁.hosts j).node (n₂.hosts j).node req u ∧ deliveries outs = [] ∧
      (∃ t svc, HasHeader u t req.deoj req.seoj svc) ∧ SizesOk req ∧ isRequestByte req.esvByte = true := by
  obtain ⟨pre, n₁, o₁, o₂, n₂, post, hp, hq⟩ := traced_split h hx
  have inv := traced_inv (plain := True) (fun _ op (hd : Disciplined op) => hd.1) h0 hp.before
  have keys := traced_keys (fun op (hd : Disciplined op) => hd.2) hk hp.before
  refine ⟨pre, n₁, o₁ ++ .tx a :: o₂, n₂, post, ?_⟩
  have hlen : pre.length ≤ p₁.length := by rw [hq]; simp
  have hmem : a ∈ txs (o₁ ++ .tx a :: o₂) := mem_txs.mp (by simp)
  simp only [] at hp
  rcases hp.step with hs | ⟨op, hop, hown, hs⟩
  · generalize o₁ ++ Out.tx a :: o₂ = outs at hp hs hmem ⊢
    cases hs with
    | lose => simp [txs] at hmem
    | receive => simp [txs] at hmem
    | die => simp [txs] at hmem
    | crash => simp [txs] at hmem
    | infected => simp [txs] at hmem
    | skip => simp [txs] at hmem
    | done => simp [txs] at hmem
    | call l₁ l₂ q o os e h' _ ps hb ht hpo hu hi hps =>
      have hq' : q ∈ n₁.busy := by rw [hb]; simp
      obtain ⟨bytes, ⟨k, r, hr, rfl, hip, hto⟩, hreads, hvalid, hfmt, hsz⟩ := inv.busy q hq'
      cases o with
      | node =>
        simp only [Host.invoke] at hi
        obtain ⟨x, hx', hi⟩ := Res.bind_eq_ok.mp hi
        simp only [Res.pure_eq, Res.ok.injEq, Prod.mk.injEq] at hi
        obtain ⟨rfl, rfl⟩ := hi
        unfold Node.observeTry at hx'
        split at hx'
        · simp only [Res.ok.injEq] at hx'
          subst hx'
          simp [txs] at hmem
        · have hx'' : (n₁.hosts q.host).node.observe b e.ω e.ok q.msg = .ok (x.1, x.2) := hx'
          obtain ⟨u, hu'⟩ := mem_txs_reply hx'' hmem
          obtain ⟨hrq, _, hdel, _, svc, hh, htxs, _⟩ := Node.reply_cases (keys q.host) hx'' hu'
          have hbytes : a.bytes = u.bytes := by rw [htxs] at hmem; exact mem_txs_bytes hmem
          refine ⟨k, r, q.msg, u, hp, mem_txs.mpr hmem, hlen, hr, inv.addr k r hr,
            observe_answers hx'' hreads hvalid hip.symm hmem ha, hreads, hbytes, ?_, hdel, ⟨_, _, hh⟩, hsz, hrq⟩
          simp only [Net.setHost, if_true]
          exact observe_serves (keys q.host) hx'' hu'
      | controller =>
        simp only [Host.invoke] at hi
        obtain ⟨x, hx', hi⟩ := Res.bind_eq_ok.mp hi
        simp only [Res.pure_eq, Res.ok.injEq, Prod.mk.injEq] at hi
        rw [← hi.2] at hmem; simp [txs] at hmem
      | device => simp only [Host.invoke, Res.ok.injEq, Prod.mk.injEq] at hi; rw [← hi.2] at hmem; simp [txs] at hmem
      | user k => simp only [Host.invoke, Res.ok.injEq, Prod.mk.injEq] at hi; rw [← hi.2] at hmem; simp [txs] at hmem
  · exfalso
    generalize o₁ ++ Out.tx a :: o₂ = outs at hp hs hmem
    cases hs with
    | mk h' _ ps hapi hstep hps =>
      rcases host_api hapi hown hstep with ⟨_, rfl⟩ | ⟨nop, ha', ho', hp', h1, _⟩
      · simp [txs] at hmem
      · obtain ⟨⟨_, _, g3⟩, _⟩ := node_api_puts (inv.owned j) ha' ho' h1
        obtain ⟨e, he, hae⟩ := ha
        obtain ⟨e', he', hae'⟩ := g3 (hp' hop.1) a hmem
        rw [he, Option.some.injEq] at he'
        rw [he', hae'] at hae
        simp at hae

/-- C79: every answer on the wire comes from one moment of the execution, after the request it answers was put out: at
that moment the answering host carried out the request completely and the answer reports that, or it refused it
completely and the answer reports that. No other step of any host happens in between. -/
theorem C79_moment (b : Build) (db : Database) (own : IpAddr → Option Nat) (n₀ n : Net S) (h0 : AtRest own n₀)
    (hk : ∀ i, ∀ o ∈ (n₀.hosts i).node.objects, KeysOk o) (tr p₁ p₂ : List (Nat × Out))
    (h : Traced b db own Disciplined n₀ tr n) (j : Nat) (a : Tx) (hx : tr = p₁ ++ (j, Out.tx a) :: p₂)
    (ha : ∃ e, a.bytes[10]? = some e ∧ isAnswerByte e = true) :
    ∃ pre n₁ outs n₂ post k r req u, Passes b db own Disciplined n₀ tr n pre n₁ j outs n₂ post ∧ Out.tx a ∈ outs ∧
      pre.length ≤ p₁.length ∧ (k, Out.tx r) ∈ pre ∧ own r.iface = some k ∧ Answers a r ∧ Reads req r.bytes ∧
      a.bytes = u.bytes ∧ Serves (n₁.hosts j).node (n₂.hosts j).node req u := by
  obtain ⟨pre, n₁, outs, n₂, post, k, r, req, u, g1, g2, g3, g4, g5, g6, g7, g8, g9, _⟩ :=
    moment_core b db own n₀ n h0 hk tr p₁ p₂ h j a hx ha
  exact ⟨pre, n₁, outs, n₂, post, k, r, req, u, g1, g2, g3, g4, g5, g6, g7, g8, g9⟩

theorem delivered_core (b : Build) (db : Database) (own : IpAddr → Option Nat) (n₀ n : Net S) (h0 : AtRest own n₀)
    (hk : ∀ i, ∀ o ∈ (n₀.hosts i).node.objects, KeysOk o) (tr pd suf : List (Nat × Out))
    (h : Traced b db own Disciplined n₀ tr n) (i ch : Nat) (m : Message) (hd : tr = pd ++ (i, Out.deliver ch m) :: suf)
    (ha : isAnswerByte m.esvByte = true) :
    ∃ pre n₁ j outs n₂ post mid r req u, Passes b db own Disciplined n₀ tr n pre n₁ j outs n₂ post ∧
      pd = pre ++ outs.map (fun o => (j, o)) ++ mid ∧ (i, Out.tx r) ∈ pre ∧ Reads req r.bytes ∧
      Serves (n₁.hosts j).node (n₂.hosts j).node req u ∧ m.esvByte = u.esvByte ∧ m.seoj = req.deoj ∧ SizesOk req ∧
      isRequestByte req.esvByte = true ∧ (SizesOk u → m.esvByte ≠ 0x5E → frameOf m = frameOf u) := by
  have inv := traced_inv (plain := True) (fun _ op (hd : Disciplined op) => hd.1) h0 h
  obtain ⟨hv, ⟨j, a, h1, h2, h3⟩, _⟩ := inv.delivered pd suf i ch m hd
  obtain ⟨p₁, p₂, hsp⟩ := List.append_of_mem h1
  obtain ⟨rest, hrest⟩ := h2
  obtain ⟨_, hw2, _, hw4⟩ := wire_frame hv hrest
  have htr : tr = p₁ ++ (j, Out.tx a) :: (p₂ ++ (i, Out.deliver ch m) :: suf) := by rw [hd, hsp]; simp
  obtain ⟨pre, n₁, outs, n₂, post, k, r, req, u, hp, ho, hl, hr, hown, hans, hreads, hbytes, hserve, hdel, ⟨t, svc, hh⟩,
    hsz, hrq⟩ := moment_core b db own n₀ n h0 hk tr p₁ _ h j a htr ⟨m.esvByte, hw4, ha⟩
  have hik : i = k := h3 k (by rw [hans.to]; exact hown)
  subst hik
  obtain ⟨_, hb2, _, hb4⟩ := wire_bytes u
  rw [← hbytes] at hb2 hb4
  have hesv : m.esvByte = u.esvByte := by
    rw [hb4] at hw4
    simp only [Option.some.injEq] at hw4
    exact hw4.symm
  have hseoj : m.seoj = req.deoj := by
    rw [← hh.seoj]
    refine UInt32.toNat_inj.mp ?_
    rw [← hb2, hw2]; rfl
  have hmid : ∃ mid, pd = pre ++ outs.map (fun o => (j, o)) ++ mid := by
    have he : pre ++ outs.map (fun o => (j, o)) ++ post = pd ++ (i, Out.deliver ch m) :: suf := by rw [← hp.trace, hd]
    rw [List.append_assoc] at he
    have hlp : pre.length ≤ pd.length := by rw [hsp]; simp; omega
    rcases split_append he with ⟨s, h1⟩ | ⟨s, s', h1, h2⟩
    · exfalso
      have := congrArg List.length h1
      simp at this
      omega
    · rcases split_append h2 with ⟨s1, h3⟩ | ⟨s1, s2, h3, _⟩
      · exfalso
        have : (i, Out.deliver ch m) ∈ outs.map (fun o => (j, o)) := by rw [h3]; simp
        obtain ⟨o, ho, he⟩ := List.mem_map.mp this
        simp only [Prod.mk.injEq] at he
        have : (ch, m) ∈ deliveries outs := mem_deliveries.mp (by rw [← he.2]; exact ho)
        rw [hdel] at this
        simp at this
      · exact ⟨s1, by rw [h1, h3, List.append_assoc]⟩
  obtain ⟨mid, hmid⟩ := hmid
  refine ⟨pre, n₁, j, outs, n₂, post, mid, r, req, u, hp, hmid, hr, hreads, hserve, hesv, hseoj, hsz, hrq, ?_⟩
  intro hu h5
  have he := Message.bytes_eq_encode u hh.fmt (by rw [← hesv]; exact h5)
  have hfull : (frameOf m).encode ++ (rest ++ a.bytes.drop 1024) = (frameOf u).encode ++ [] := by
    rw [← List.append_assoc, ← hrest, List.take_append_drop, List.append_nil, hbytes, he]
  exact (C06_frame_unambiguous _ _ _ _ hv (frameOf_valid _ hu) hfull).1

/-- C79: a delivered answer is the report of one moment, between the sending of the request and the delivery, at which
the request was carried out completely or refused completely (given that its parts fit into a frame, see C05; an answer
0x5E cannot be decoded, see C27). -/
theorem C79_delivered (b : Build) (db : Database) (own : IpAddr → Option Nat) (n₀ n : Net S) (h0 : AtRest own n₀)
    (hk : ∀ i, ∀ o ∈ (n₀.hosts i).node.objects, KeysOk o) (tr pd suf : List (Nat × Out))
    (h : Traced b db own Disciplined n₀ tr n) (i ch : Nat) (m : Message) (hd : tr = pd ++ (i, Out.deliver ch m) :: suf)
    (ha : isAnswerByte m.esvByte = true) :
    ∃ pre n₁ j outs n₂ post mid r req u, Passes b db own Disciplined n₀ tr n pre n₁ j outs n₂ post ∧
      pd = pre ++ outs.map (fun o => (j, o)) ++ mid ∧ (i, Out.tx r) ∈ pre ∧ Reads req r.bytes ∧
      Serves (n₁.hosts j).node (n₂.hosts j).node req u ∧ m.esvByte = u.esvByte ∧
      (SizesOk u → m.esvByte ≠ 0x5E → frameOf m = frameOf u) := by
  obtain ⟨pre, n₁, j, outs, n₂, post, mid, r, req, u, g1, g2, g3, g4, g5, g6, _, _, _, g7⟩ :=
    delivered_core b db own n₀ n h0 hk tr pd suf h i ch m hd ha
  exact ⟨pre, n₁, j, outs, n₂, post, mid, r, req, u, g1, g2, g3, g4, g5, g6, g7⟩

theorem success_inv : ∀ e r : UInt8, successByte e = some r → (r = 0x71 → e = 0x61) ∧ (r = 0x72 → e = 0x62) ∧
    (r = 0x7E → e = 0x6E) := by
  intro e r h
  unfold successByte at h
  repeat' split at h
  all_goals first | (simp only [Option.some.injEq] at h; subst h; simp_all) | simp at h

theorem errorByte_negative (e : UInt8) : errorByte e ≠ 0x71 ∧ errorByte e ≠ 0x72 ∧ errorByte e ≠ 0x7E := by
  unfold errorByte
  split
  · decide
  · split
    · decide
    · split
      · decide
      · split <;> decide

/-- C79, reads: the data of a delivered read response are what the object held, all at one moment between the sending of
the request and the delivery. -/
theorem C79_read (b : Build) (db : Database) (own : IpAddr → Option Nat) (n₀ n : Net S) (h0 : AtRest own n₀)
    (hk : ∀ i, ∀ o ∈ (n₀.hosts i).node.objects, KeysOk o) (tr pd suf : List (Nat × Out))
    (h : Traced b db own Disciplined n₀ tr n) (i ch : Nat) (m : Message) (hd : tr = pd ++ (i, Out.deliver ch m) :: suf)
    (ha : m.esvByte = 0x72) :
    ∃ pre n₁ j outs n₂ post mid r req dst, Passes b db own Disciplined n₀ tr n pre n₁ j outs n₂ post ∧
      pd = pre ++ outs.map (fun o => (j, o)) ++ mid ∧ (i, Out.tx r) ∈ pre ∧ Reads req r.bytes ∧ req.esvByte = 0x62 ∧
      dst ∈ (n₂.hosts j).node.objects ∧ dst.code = m.seoj ∧
      (∀ q ∈ req.properties, ∃ p, dst.properties q.code = some p) ∧
      ((∀ p ∈ dataOf dst req.properties, p.data.length ≤ 255) → m.properties = dataOf dst req.properties) := by
  obtain ⟨pre, n₁, j, outs, n₂, post, mid, r, req, u, g1, g2, g3, g4, g5, g6, g7, g8, _, g9⟩ :=
    delivered_core b db own n₀ n h0 hk tr pd suf h i ch m hd (by rw [ha]; decide)
  rw [ha] at g6
  cases g5 with
  | refused svc => exact absurd (svc.symm.trans g6.symm) (errorByte_negative _).2.1
  | done p dst dst' q target allowed svc objects code attrs written kept read acked both single =>
    have hreq : req.esvByte = 0x62 := ((success_inv _ _ svc).2.1) g6.symm
    refine ⟨pre, n₁, j, outs, n₂, post, mid, r, req, dst', g1, g2, g3, g4, hreq, by rw [objects]; simp, ?_, ?_, ?_⟩
    · rw [code, target.code, g7]
    · intro x hx
      obtain ⟨p, hp, _⟩ := allowed.2 x (by rw [readsOf, hreq]; simpa using hx)
      have := attrs x.code
      rw [hp] at this
      obtain ⟨p', hp', _⟩ := Option.map_eq_some_iff.mp (this.trans (Option.map_some ..))
      exact ⟨p', hp'⟩
    · intro hsmall
      have hs := single (by rw [hreq]; decide)
      have hu : frameOf m = frameOf u := by
        refine g9 ⟨?_, ?_, ?_⟩ (by rw [ha]; decide)
        · rw [read hreq]; exact ⟨by simpa [dataOf] using g8.1.1, hsmall⟩
        · rw [hs.1]; exact ⟨by simp, by simp⟩
        · rw [hs.2]; exact ⟨by simp, by simp⟩
      have := congrArg Frame.body hu
      simp only [frameOf, ha, ← g6, show isWriteReadByte 0x72 = false by decide, Bool.false_eq_true, if_false,
        Body.single.injEq] at this
      rw [this, read hreq]

/-- C79, writes: when a write response is delivered, there was a moment between the sending of the request and the
delivery at which the object held all the data written. -/
theorem C79_write (b : Build) (db : Database) (own : IpAddr → Option Nat) (n₀ n : Net S) (h0 : AtRest own n₀)
    (hk : ∀ i, ∀ o ∈ (n₀.hosts i).node.objects, KeysOk o) (tr pd suf : List (Nat × Out))
    (h : Traced b db own Disciplined n₀ tr n) (i ch : Nat) (m : Message) (hd : tr = pd ++ (i, Out.deliver ch m) :: suf)
    (ha : m.esvByte = 0x71) :
    ∃ pre n₁ j outs n₂ post mid r req dst, Passes b db own Disciplined n₀ tr n pre n₁ j outs n₂ post ∧
      pd = pre ++ outs.map (fun o => (j, o)) ++ mid ∧ (i, Out.tx r) ∈ pre ∧ Reads req r.bytes ∧ req.esvByte = 0x61 ∧
      dst ∈ (n₂.hosts j).node.objects ∧ dst.code = m.seoj ∧
      ∀ c d, lastWrite req.properties c = some d → ∃ p, dst.properties c = some p ∧ p.data = d := by
  obtain ⟨pre, n₁, j, outs, n₂, post, mid, r, req, u, g1, g2, g3, g4, g5, g6, g7, g8, _, _⟩ :=
    delivered_core b db own n₀ n h0 hk tr pd suf h i ch m hd (by rw [ha]; decide)
  rw [ha] at g6
  cases g5 with
  | refused svc => exact absurd (svc.symm.trans g6.symm) (errorByte_negative _).1
  | done p dst dst' q target allowed svc objects code attrs written kept read acked both single =>
    have hreq : req.esvByte = 0x61 := ((success_inv _ _ svc).1) g6.symm
    have hwr : writesOf req = req.properties := by rw [writesOf, hreq]; simp
    refine ⟨pre, n₁, j, outs, n₂, post, mid, r, req, dst', g1, g2, g3, g4, hreq, by rw [objects]; simp, ?_, ?_⟩
    · rw [code, target.code, g7]
    · intro c d hl
      have hw := lastWrite_mem hl
      obtain ⟨p, hp, _⟩ := allowed.1 _ (by rw [hwr]; exact hw)
      have := attrs c
      rw [hp] at this
      obtain ⟨p', hp', _⟩ := Option.map_eq_some_iff.mp (this.trans (Option.map_some ..))
      exact ⟨p', hp', written _ d p' (by rw [hwr]; exact hl) hp'⟩

/-! ## An execution -/

/-- A receiver thread takes the first datagram, calls the node and waits for the next datagram. -/
theorem traced_round {b : Build} {db : Database} {own : IpAddr → Option Nat} {rule : HostOp S → Prop} {n₀ x : Net S}
    {tr : List (Nat × Out)} (h : Traced b db own rule n₀ tr x) {p : Packet} {rest : List Packet} {s : Server} {m : Message}
    {en : LoopEnd} {n' : Node S} {outs : List Out} {ω : HashOrder} {ok : Nat → Bool} (ps : List Packet)
    (hf : x.flying = p :: rest) (hidle : x.busy = []) (hpo : x.poisoned p.host .node = false)
    (hs : (x.hosts p.host).threads[p.srv]? = some s) (hr : s.thread = .running) (ho : s.observers = [.node])
    (hm : recvLoop [.datagram p.bytes p.src] = ([m], en))
    (hobs : (x.hosts p.host).node.observe b ω ok m = .ok (n', outs))
    (hps : ∀ p ∈ ps, ∃ t, Out.tx t ∈ outs ∧ p.bytes = t.bytes ∧ p.src.ip = t.iface ∧
      ∀ j, own t.to.ip = some j → p.host = j) :
    Traced b db own rule n₀ (tr ++ outs.map (fun o => (p.host, o)))
      { x.setHost p.host { x.hosts p.host with node := n' } with flying := rest ++ ps, busy := [] } := by
  have h1 := Net.Internal.receive (b := b) (db := db) (n := x) [] rest p s (by rw [hf]; rfl) hs hr
    (fun q hq => by rw [hidle] at hq; simp at hq)
  have hx : x.received p s ([] ++ rest) = { x with flying := rest, busy := [⟨p.host, p.srv, m, [.node]⟩] } := by
    unfold Net.received; rw [hm]; simp only [ho, hidle, List.nil_append]
  rw [hx] at h1
  have h2 := Net.Internal.call (b := b) (db := db)
    (n := ({ x with flying := rest, busy := [⟨p.host, p.srv, m, [.node]⟩] } : Net S)) [] []
    ⟨p.host, p.srv, m, [.node]⟩ .node [] ⟨true, true, ω, fun _ => List.replicate 16 0, ok⟩ { x.hosts p.host with node := n' } outs
    ps rfl rfl hpo (fun _ => rfl) (by
      simp only [Host.invoke, Node.observeTry, Bool.not_true, Bool.false_eq_true, if_false, hobs, Res.bind_ok, Res.pure_eq])
    (by intro p' hp'
        obtain ⟨t, g1, g2, g3, _⟩ := hps p' hp'
        exact ⟨t, g1, g2, g3⟩)
  have g1 := Traced.internal h h1 (by intro p' hp'; exact Or.inl (by rw [hf]; exact List.mem_cons_of_mem _ hp'))
  have g2 := Traced.internal g1 h2 (by
    intro p' hp'
    rcases List.mem_append.mp hp' with hp' | hp'
    · exact Or.inl hp'
    · exact Or.inr (hps p' hp'))
  have h3 := Net.Internal.done (b := b) (db := db)
    (n := ({ x.setHost p.host { x.hosts p.host with node := n' } with
      flying := rest ++ ps, busy := [⟨p.host, p.srv, m, []⟩] } : Net S)) [] [] ⟨p.host, p.srv, m, []⟩ rfl rfl
  have g3 := Traced.internal g2 h3 (by intro p' hp'; exact Or.inl hp')
  simpa [Net.setHost] using g3

/-- A handler that accepts everything and counts how often it is called. -/
def countCalls : Handler Nat := fun s o _ _ => (true, o, s + 1)
def exLight : Res Object := exObject [0x80, 0xB0, 0x9F]
def exCaller : Node Nat :=
  ⟨⟨[⟨.v4 0xC0A80001, [.node], .running⟩], []⟩, [], 0, none, 0, [], [.node], 0⟩
def exCounting (o : Object) : Node Nat :=
  ⟨⟨[⟨.v4 0xC0A80002, [.node], .running⟩], []⟩, [o], 0, none, 0, [countCalls], [.node], 0⟩
def exPair (a b : Node Nat) : Net Nat :=
  ⟨fun i => if i = 0 then .ofNode a else if i = 1 then .ofNode b else ⟨⟨Manager.new, [], 0, none, 0, [], [], 0⟩, [], []⟩, [], [],
    fun _ _ => false, fun _ => false⟩
def exWrite : Message := (exPost .WriteRequestResponseRequired).addProperty ⟨0xB0, [0x42]⟩
/-- What the object answers to `exWrite`. -/
def exWritten : List UInt8 := [0x10, 0x81, 0, 1, 0x02, 0x90, 0x01, 0, 0, 0, 0x71, 1, 0xB0, 0]

/-- C79, what it does not say: a request is not carried out at most once. The network may deliver a datagram twice, and
the library then carries out the request twice: host 0 posts one write request, the application's handler at host 1 is
called twice. The response is delivered once. (Also the non-vacuity of the theorems above.) -/
theorem C79_at_most_once_fails (db : Database) : ∃ (n₀ n : Net Nat) (tr : List (Nat × Out)) (m : Message),
    AtRest exOwn n₀ ∧ (∀ i, ∀ o ∈ (n₀.hosts i).node.objects, KeysOk o) ∧ Traced .dev db exOwn Disciplined n₀ tr n ∧
    tr.getLast? = some (0, Out.deliver 0 m) ∧ m.esvByte = 0x71 ∧ m.properties = [⟨0xB0, []⟩] ∧
    (txs (outsOf 0 tr)).length = 1 ∧ (n₀.hosts 1).node.app = 0 ∧ (n.hosts 1).node.app = 2 := by
  obtain ⟨o, A, oa, rq, B, ob, B', ob', rs, A', m', ho, hk, ha, ht, hr, hb, hta, hb', hm, hobs, hesv, hp, hcnt, happ⟩ :
      ∃ o A oa rq B ob B' ob' rs A' m', exLight = .ok o ∧ (∀ k : UInt8, ((o.properties k).all (fun p => p.code == k)) = true) ∧
      exCaller.step .dev (.post ⟨.v4 0xC0A80002, 3610⟩ exWrite allOk) = .ok (A, oa) ∧
      (⟨.v4 0xC0A80001, ⟨.v4 0xC0A80002, 3610⟩, (exWrite.setTid 1).bytes⟩ : Tx) ∈ txs oa ∧
      recvLoop [.datagram (exWrite.setTid 1).bytes ⟨.v4 0xC0A80001, 3610⟩] = ([rq], .running) ∧
      (exCounting o).observe .dev .ascending allOk rq = .ok (B, ob) ∧
      (⟨.v4 0xC0A80002, ⟨.v4 0xC0A80001, 3610⟩, exWritten⟩ : Tx) ∈ txs ob ∧
      B.observe .dev .ascending allOk rq = .ok (B', ob') ∧
      recvLoop [.datagram exWritten ⟨.v4 0xC0A80002, 3610⟩] = ([rs], .running) ∧
      A.observe .dev .ascending allOk rs = .ok (A', [.deliver 0 m']) ∧ m'.esvByte = 0x71 ∧
      m'.properties = [⟨0xB0, []⟩] ∧
      (txs (outsOf 0 ([] ++ oa.map (fun o => (0, o)) ++ ob.map (fun o => (1, o)) ++ ob'.map (fun o => (1, o)) ++
        [Out.deliver 0 m'].map (fun o => (0, o))))).length = 1 ∧ B'.app = 2 := by
    refine ⟨_, _, _, _, _, _, _, _, _, _, _, rfl, by decide +kernel, rfl, by decide +kernel, rfl, rfl, by decide +kernel, rfl,
      rfl, rfl, by decide +kernel, by decide +kernel, by decide +kernel, rfl⟩
  have hq : AtRest exOwn (exPair exCaller (exCounting o)) := by
    refine ⟨rfl, rfl, ?_⟩
    intro i s hs
    unfold exPair at hs
    simp only [] at hs
    split at hs
    · rename_i h; subst h
      simp only [Host.threads, Host.ofNode, exCaller, List.append_nil, List.mem_cons, List.not_mem_nil, or_false] at hs
      rw [hs]; rfl
    · split at hs
      · rename_i h; subst h
        simp only [Host.threads, Host.ofNode, exCounting, List.append_nil, List.mem_cons, List.not_mem_nil, or_false] at hs
        rw [hs]; rfl
      · simp [Host.threads, Manager.new] at hs
  have hkeys : ∀ i, ∀ x ∈ ((exPair exCaller (exCounting o)).hosts i).node.objects, KeysOk x := by
    intro i x hx
    unfold exPair at hx
    simp only [] at hx
    split at hx
    · simp [Host.ofNode, exCaller] at hx
    · split at hx
      · simp only [Host.ofNode, exCounting, List.mem_cons, List.not_mem_nil, or_false] at hx
        subst hx
        intro k p hp
        have := hk k
        rw [hp] at this
        simpa using this
      · simp at hx
  have t1 := traced_node (b := .dev) (db := db) (own := exOwn) (rule := Disciplined) (.init)
    (n₀ := exPair exCaller (exCounting o))
    0 [⟨⟨.v4 0xC0A80001, 3610⟩, 1, 0, (exWrite.setTid 1).bytes⟩, ⟨⟨.v4 0xC0A80001, 3610⟩, 1, 0, (exWrite.setTid 1).bytes⟩]
    ha trivial trivial ⟨show isAnswerByte _ = false by decide +kernel, trivial⟩ (by
    intro p hp
    simp only [List.mem_cons, List.not_mem_nil, or_false, or_self] at hp
    subst hp
    exact ⟨_, mem_txs.mpr ht, rfl, rfl, by intro j hj; revert hj; simp [exOwn]⟩)
  have hB : B.transport = (exCounting o).transport := (invoke_txs (b := .dev) (db := db)
    (e := ⟨true, true, .ascending, fun _ => [], allOk⟩) (msg := rq) (h := .ofNode (exCounting o)) (o := .node)
    (h' := .ofNode B) (outs := ob) (by
      simp only [Host.invoke, Host.ofNode, Node.observeTry, Bool.not_true, Bool.false_eq_true, if_false, hb, Res.bind_ok,
        Res.pure_eq])).1
  have t2 := traced_round t1 (p := ⟨⟨.v4 0xC0A80001, 3610⟩, 1, 0, (exWrite.setTid 1).bytes⟩)
    (rest := [⟨⟨.v4 0xC0A80001, 3610⟩, 1, 0, (exWrite.setTid 1).bytes⟩])
    (s := ⟨.v4 0xC0A80002, [.node], .running⟩) [⟨⟨.v4 0xC0A80002, 3610⟩, 0, 0, exWritten⟩] rfl rfl rfl
    (by simp [Net.setHost, exPair, Host.ofNode, Host.threads, exCounting]) rfl rfl hr
    (by simpa [Net.setHost, exPair, Host.ofNode] using hb) (by
    intro p hp
    simp only [List.mem_cons, List.not_mem_nil, or_false] at hp
    subst hp
    exact ⟨_, mem_txs.mpr hta, rfl, rfl, by intro j hj; revert hj; simp [exOwn]⟩)
  have t3 := traced_round t2 (p := ⟨⟨.v4 0xC0A80001, 3610⟩, 1, 0, (exWrite.setTid 1).bytes⟩)
    (rest := [⟨⟨.v4 0xC0A80002, 3610⟩, 0, 0, exWritten⟩])
    (s := ⟨.v4 0xC0A80002, [.node], .running⟩) [] rfl rfl rfl
    (by simp [Net.setHost, Host.threads, hB, exCounting]) rfl rfl hr
    (by simpa [Net.setHost] using hb') (by simp)
  have hA : A.transport = exCaller.transport := by
    simp only [Node.step, Node.postMessage, Res.ok.injEq, Prod.mk.injEq] at ha
    rw [← ha.1]; simp [Node.updateTid_transport]
  have t4 := traced_round t3 (p := ⟨⟨.v4 0xC0A80002, 3610⟩, 0, 0, exWritten⟩) (rest := [])
    (s := ⟨.v4 0xC0A80001, [.node], .running⟩) [] rfl rfl rfl
    (by simp [Net.setHost, Host.threads, hA, exCaller]) rfl rfl hm (by simpa [Net.setHost] using hobs) (by simp)
  refine ⟨_, _, _, m', hq, hkeys, t4, by simp, hesv, hp, hcnt, rfl, ?_⟩
  simpa [Net.setHost] using happ

end Uecho
