import Verif.Spec.Linear
import Verif.Props.Atomic
import Verif.Props.Handlers
/-!
# One order of all accesses to the objects of a host: C83
-/
namespace Uecho
open Spec
variable {S : Type}

/-! ## Logs and traces -/

/-- What was put out, without the values set. -/
def putsOf (log : List Entry) : List (Nat × Out) := log.filterMap (fun e => match e with
  | .put i o => some (i, o)
  | .set _ _ _ _ => none)

theorem putsOf_append (a b : List Entry) : putsOf (a ++ b) = putsOf a ++ putsOf b := by simp [putsOf]

theorem putsOf_map (i : Nat) (outs : List Out) : putsOf (outs.map (.put i)) = outs.map (fun o => (i, o)) := by
  induction outs with
  | nil => rfl
  | cons o os ih =>
    have : putsOf (Entry.put i o :: os.map (.put i)) = (i, o) :: putsOf (os.map (.put i)) := rfl
    simp only [List.map_cons]
    rw [this, ih]

theorem putsOf_setBy (i : Nat) (op : HostOp S) : putsOf (setBy i op) = [] := by
  unfold setBy
  split <;> rfl

theorem mem_putsOf {log : List Entry} {i : Nat} {o : Out} : (i, o) ∈ putsOf log ↔ Entry.put i o ∈ log := by
  unfold putsOf
  rw [List.mem_filterMap]
  constructor
  · rintro ⟨e, he, h⟩
    cases e with
    | put i' o' => simp only [Option.some.injEq, Prod.mk.injEq] at h; rw [← h.1, ← h.2]; exact he
    | set => simp at h
  · intro h; exact ⟨_, h, rfl⟩

theorem logged_traced {b : Build} {db : Database} {own : IpAddr → Option Nat} {j : Nat} {n₀ n : Net S} {log : List Entry}
    (h : Logged b db own j n₀ log n) : Traced b db own NoAnswers n₀ (putsOf log) n := by
  induction h with
  | init => exact .init
  | internal _ hs hr ih => rw [putsOf_append, putsOf_map]; exact .internal ih hs hr
  | api _ hs hr ho hp _ ih =>
    rw [putsOf_append, putsOf_append, putsOf_setBy, putsOf_map]; exact .api ih hs hr ho hp

theorem setsIn_append (j : Nat) (log : List Entry) (es : List Entry) : setsIn j (log ++ es) =
    setsIn j log ++ (es.zipIdx log.length).filterMap (fun x => match x.1 with
      | .set i oc c d => if i = j then some (x.2, oc, c, d) else none
      | .put _ _ => none) := by
  unfold setsIn
  rw [List.zipIdx_append, List.filterMap_append, Nat.zero_add]
  rfl

theorem setsIn_puts (j : Nat) (log : List Entry) (i : Nat) (outs : List Out) :
    setsIn j (log ++ outs.map (.put i)) = setsIn j log := by
  rw [setsIn_append]
  have : ∀ (k : Nat), ((outs.map (Entry.put i)).zipIdx k).filterMap (fun x => match x.1 with
      | .set i oc c d => if i = j then some (x.2, oc, c, d) else none
      | .put _ _ => none) = [] := by
    induction outs with
    | nil => intro k; rfl
    | cons o os ih => intro k; simp only [List.map_cons, List.zipIdx_cons, List.filterMap_cons]; exact ih _
  rw [this, List.append_nil]

/-! ## Steps of the host concerned -/

theorem write_one (v : Values) (c : UInt8) (d : List UInt8) (c' : UInt8) :
    v.write [⟨c, d⟩] c' = if c' = c then (v c').map (fun _ => d) else v c' := by
  unfold Values.write lastWrite
  simp only [List.foldl_cons, List.foldl_nil]
  by_cases h : c = c'
  · simp [h]
  · have h' : ¬ c' = c := fun e => h e.symm
    simp [h, h']

/-- A value set by the application. -/
theorem setProperty_access {n : Node S} {o : Object} {v : Values} (hs : List (Handler S)) (hi : Implements n o v)
    (oc : UInt32) (c : UInt8) (d : List UInt8) : Implements (n.setProperty oc c d).2 o (v.access hs o (.set oc c d)) := by
  obtain ⟨hk, x, hx, hattr, hval⟩ := hi
  unfold Node.setProperty
  cases hf : findObject n.objects oc with
  | none =>
    have hne : oc ≠ o.code := by intro e; rw [e, hx] at hf; simp at hf
    simp only [Values.access, hne, if_false]
    exact ⟨hk, x, hx, hattr, hval⟩
  | some y =>
    simp only []
    obtain ⟨pre, post, h1, h2, h3⟩ := findObject_split hf
    cases hy : y.findProperty c with
    | none =>
      refine ⟨hk, x, hx, hattr, ?_⟩
      intro c' hm
      rw [hval c' hm]
      by_cases he : oc = o.code
      · rw [← he, hf] at hx
        simp only [Option.some.injEq] at hx
        subst hx
        simp only [Values.access, he, if_true]
        rw [write_one]
        split
        · rename_i hc
          subst hc
          have : y.properties c' = none := hy
          have hv : v c' = none := by rw [← hval c' hm]; simp [valuesOf, this]
          simp [hv]
        · rfl
      · simp only [Values.access, he, if_false]
    | some p =>
      simp only []
      have hcode : (y.setPropertyData c d).2.code = y.code := Node.code_of_sameId (Object.setPropertyData_sameId y c d)
      refine ⟨updateObject_keys (fun o ho => Object.setPropertyData_keysOk ho _ _) _ hk, ?_⟩
      simp only []
      rw [h1, updateObject_append _ h2 h3]
      by_cases he : oc = o.code
      · rw [← he, hf] at hx
        simp only [Option.some.injEq] at hx
        subst hx
        refine ⟨(y.setPropertyData c d).2, ?_, ?_, ?_⟩
        · rw [← he]; exact findObject_append h2 (hcode.trans h3)
        · intro c'
          rw [Object.setPropertyData_props, ← hattr c']
          split
          · rename_i e; rw [e]; cases y.properties c <;> rfl
          · rfl
        · intro c' hm
          simp only [Values.access, he, if_true]
          rw [write_one, ← hval c' hm]
          unfold valuesOf
          rw [Object.setPropertyData_props]
          by_cases hc : c' = c
          · subst hc
            simp only [if_true, Option.map_map]
            cases y.properties c' <;> rfl
          · simp only [hc, if_false]
      · refine ⟨x, ?_, hattr, ?_⟩
        · rw [findObject_replace_other hcode (by rw [h3]; exact he), ← h1]; exact hx
        · simp only [Values.access, he, if_false]; exact hval

theorem setProperty_alike (n : Node S) (oc : UInt32) (c : UInt8) (d : List UInt8) :
    AlikeAll n.objects (n.setProperty oc c d).2.objects := by
  unfold Node.setProperty
  cases hf : findObject n.objects oc with
  | none => exact .refl _
  | some y =>
    simp only []
    obtain ⟨pre, post, h1, h2, h3⟩ := findObject_split hf
    split
    · exact .refl _
    · simp only []
      rw [h1, updateObject_append _ h2 h3]
      refine AlikeAll.replace ⟨Node.code_of_sameId (Object.setPropertyData_sameId y c d), ?_⟩ _ _
      intro c'
      rw [Object.setPropertyData_props]
      split
      · rename_i e; rw [e]; cases y.properties c <;> rfl
      · rfl

/-- The other calls of a steady application leave objects and handlers alone. -/
theorem steady_frame {b : Build} {db : Database} {h h' : Host S} {op : HostOp S} {outs : List Out} (ha : Net.IsApi op)
    (hst : Steady op) (hs : h.step b db op = .ok (h', outs)) :
    (∃ oc c d, op = .node (.setProperty oc c d) ∧ h'.node = (h.node.setProperty oc c d).2 ∧ outs = []) ∨
    (∀ i, setBy i op = []) ∧ h'.node.objects = h.node.objects ∧ h'.node.handlers = h.node.handlers := by
  cases op with
  | call o e m => exact ha.elim
  | node op =>
    obtain ⟨r, hr, hs⟩ := Res.bind_eq_ok.mp hs
    simp only [Res.pure_eq, Res.ok.injEq, Prod.mk.injEq] at hs
    obtain ⟨rfl, rfl⟩ := hs
    cases op with
    | addObject o => exact hst.elim
    | addHandler _ => exact hst.elim
    | edit _ _ => exact hst.elim
    | start _ _ _ => exact hst.elim
    | stop => exact hst.elim
    | addObserver _ => simp only [Node.step, Res.ok.injEq] at hr; rw [← hr]; exact Or.inr ⟨fun _ => rfl, rfl, rfl⟩
    | send to msg ok =>
      simp only [Node.step, Node.sendMessage, Res.ok.injEq] at hr
      rw [← hr]; refine Or.inr ⟨fun _ => rfl, ?_⟩
      simp only []
      rw [Node.updateTid_frame]; exact ⟨rfl, rfl⟩
    | post to msg ok =>
      simp only [Node.step, Node.postMessage, Res.ok.injEq] at hr
      rw [← hr]; refine Or.inr ⟨fun _ => rfl, ?_⟩
      simp only []
      rw [Node.updateTid_frame]; exact ⟨rfl, rfl⟩
    | notify msg ok =>
      simp only [Node.step, Node.notify, Res.ok.injEq] at hr
      rw [← hr]; refine Or.inr ⟨fun _ => rfl, ?_⟩
      simp only []
      rw [Node.updateTid_frame]; exact ⟨rfl, rfl⟩
    | announceProperty obj prop ok =>
      simp only [Node.step, Node.announceProperty, Node.notify, Res.ok.injEq] at hr
      rw [← hr]; refine Or.inr ⟨fun _ => rfl, ?_⟩
      simp only []
      rw [Node.updateTid_frame]; exact ⟨rfl, rfl⟩
    | announce ok =>
      simp only [Node.step, Res.ok.injEq] at hr
      rw [← hr]; refine Or.inr ⟨fun _ => rfl, ?_⟩
      simp only []
      rw [(announce_frame ok _).1]; exact ⟨rfl, rfl⟩
    | setProperty oc c d =>
      simp only [Node.step, Res.ok.injEq] at hr
      rw [← hr]; exact Or.inl ⟨oc, c, d, rfl, rfl, rfl⟩
    | receive msg free ω ok => exact ha.elim
  | search code ok =>
    simp only [Host.step, Res.ok.injEq] at hs
    have h1 : h' = (h.searchObject ok code).2.1 := by rw [hs]
    subst h1
    refine Or.inr ⟨fun _ => rfl, ?_⟩
    simp only [Host.searchObject, Node.notify]
    rw [Node.updateTid_frame]; exact ⟨rfl, rfl⟩
  | send r m free ok =>
    simp only [Host.step, Res.ok.injEq, Host.sendMessage] at hs
    refine Or.inr ⟨fun _ => rfl, ?_⟩
    cases free with
    | false =>
      simp only [Bool.not_false, if_true, Prod.mk.injEq] at hs
      rw [← hs.1]; exact ⟨rfl, rfl⟩
    | true =>
      simp only [Bool.not_true, Bool.false_eq_true, if_false, Prod.mk.injEq, Node.sendMessage] at hs
      rw [← hs.1]
      simp only []
      rw [Node.updateTid_frame]; exact ⟨rfl, rfl⟩
  | post r m ok =>
    simp only [Host.step, Res.ok.injEq, Host.postMessage, Prod.mk.injEq, Node.postMessage] at hs
    refine Or.inr ⟨fun _ => rfl, ?_⟩
    rw [← hs.1]
    simp only []
    rw [Node.updateTid_frame]; exact ⟨rfl, rfl⟩
  | start _ _ _ => exact hst.elim
  | stop => exact hst.elim

/-! ## Extending an explanation -/

theorem Spec.Explains.extend {own : IpAddr → Option Nat} {hs : List (Handler S)} {objs : List Object} {j : Nat} {log : List Entry}
    {l : List (Nat × Access)} (h : Explains own hs objs j log l) (hb : ∀ x ∈ l, x.1 ≤ log.length) (es : List Entry)
    (new : List Access)
    (hheard : ∀ m, Access.request m ∈ new → ∃ k r, Entry.put k (.tx r) ∈ log ∧ Reads m r.bytes ∧ (frameOf m).Valid ∧
      m.sender.ip = r.iface ∧ ∀ j', own r.to.ip = some j' → j = j')
    (hsets : setsIn j (log ++ es) = setsIn j log ++ setsOf (new.map (fun a => (log.length, a))))
    (hans : ∀ a, Entry.put j (.tx a) ∈ es → (∃ e, a.bytes[10]? = some e ∧ isAnswerByte e = true) →
      ∃ req k r u o, new = [.request req] ∧ Entry.put k (.tx r) ∈ log ∧ Answers a r ∧ Reads req r.bytes ∧
        req.sender.ip = r.iface ∧ a.bytes = u.bytes ∧ (∃ g, Entry.put j (.handed g u) ∈ es) ∧ findObject objs req.deoj = some o ∧
        Reports hs o (valuesAfter hs o (l.map (fun x => x.2) ++ [.request req])) req u) :
    Explains own hs objs j (log ++ es) (l ++ new.map (fun a => (log.length, a))) := by
  constructor
  · rw [List.pairwise_append]
    refine ⟨h.ordered, ?_, ?_⟩
    · rw [List.pairwise_map]
      exact List.pairwise_of_forall (fun _ _ => Nat.le_refl _)
    · intro x hx y hy
      obtain ⟨a, _, rfl⟩ := List.mem_map.mp hy
      exact hb x hx
  · intro t m hm
    rcases List.mem_append.mp hm with hm | hm
    · obtain ⟨k, r, h1, h2⟩ := h.heard t m hm
      refine ⟨k, r, ?_, h2⟩
      rw [List.take_append_of_le_length (hb _ hm)]; exact h1
    · obtain ⟨a, ha, he⟩ := List.mem_map.mp hm
      simp only [Prod.mk.injEq] at he
      obtain ⟨rfl, rfl⟩ := he
      obtain ⟨k, r, h1, h2⟩ := hheard m ha
      refine ⟨k, r, ?_, h2⟩
      rw [List.take_left]; exact h1
  · rw [hsets, ← h.sets]; simp [setsOf]
  · intro t a ht ha
    by_cases hlt : t < log.length
    · rw [List.getElem?_append_left hlt] at ht
      obtain ⟨l₁, t', req, l₂, k, r, u, o, h1, h2, h3, h4, h5, h5', h6, ⟨g, h7⟩, h8⟩ := h.answers t a ht ha
      refine ⟨l₁, t', req, l₂ ++ new.map (fun a => (log.length, a)), k, r, u, o, by rw [h1]; simp, h2, ?_, h4, h5, h5', h6,
        ⟨g, List.mem_append_left _ h7⟩, h8⟩
      rw [List.take_append_of_le_length (by omega)]; exact h3
    · rw [List.getElem?_append_right (by omega)] at ht
      obtain ⟨req, k, r, u, o, rfl, h1, h2, h3, h3', h4, ⟨g, h5⟩, h6⟩ := hans a (List.mem_of_getElem? ht) ha
      refine ⟨l, log.length, req, [], k, r, u, o, rfl, by omega, ?_, h2, h3, h3', h4, ⟨g, List.mem_append_right _ h5⟩, h6⟩
      rw [List.take_left]; exact h1

/-- What holds during an execution. -/
structure LinInv (own : IpAddr → Option Nat) (hs : List (Handler S)) (objs : List Object) (j : Nat) (log : List Entry) (n : Net S)
    (l : List (Nat × Access)) : Prop where
  ex : Explains own hs objs j log l
  before : ∀ x ∈ l, x.1 ≤ log.length
  handlers : (n.hosts j).node.handlers = hs
  alike : AlikeAll objs (n.hosts j).node.objects
  keys : ∀ x ∈ (n.hosts j).node.objects, KeysOk x
  impl : ∀ o, findObject objs o.code = some o →
    Implements (n.hosts j).node o (valuesAfter hs o (l.map (fun x => x.2)))

/-- A step that does not concern the objects of the host. -/
theorem LinInv.frame {own : IpAddr → Option Nat} {hs : List (Handler S)} {objs : List Object} {j : Nat} {log : List Entry} {n n' : Net S}
    {l : List (Nat × Access)} (h : LinInv own hs objs j log n l) (es : List Entry)
    (hn : (n'.hosts j).node.objects = (n.hosts j).node.objects) (hh : (n'.hosts j).node.handlers = (n.hosts j).node.handlers)
    (hsets : setsIn j (log ++ es) = setsIn j log)
    (hans : ∀ a, Entry.put j (.tx a) ∈ es → ¬ ∃ e, a.bytes[10]? = some e ∧ isAnswerByte e = true) :
    LinInv own hs objs j (log ++ es) n' l := by
  refine ⟨?_, fun x hx => ?_, hh.trans h.handlers, by rw [hn]; exact h.alike, by rw [hn]; exact h.keys, ?_⟩
  · have := h.ex.extend h.before es [] (by simp) (by rw [hsets]; simp [setsOf]) (fun a ha hx => absurd hx (hans a ha))
    simpa using this
  · have := h.before x hx; rw [List.length_append]; omega
  · intro o ho
    obtain ⟨h1, h2⟩ := h.impl o ho
    exact ⟨by rw [hn]; exact h1, by rw [hn]; exact h2⟩

theorem mem_put_map {i j : Nat} {o : Out} {outs : List Out} (h : Entry.put j o ∈ outs.map (.put i)) :
    j = i ∧ o ∈ outs := by
  obtain ⟨o', ho', he⟩ := List.mem_map.mp h
  simp only [Entry.put.injEq] at he
  exact ⟨he.1.symm, he.2 ▸ ho'⟩

theorem valuesAfter_snoc (hs : List (Handler S)) (o : Object) (l : List Access) (a : Access) :
    valuesAfter hs o (l ++ [a]) = (valuesAfter hs o l).access hs o a := by
  simp [valuesAfter]

theorem answer_not_notification {e : UInt8} (h : isAnswerByte e = true) : isResponseByte e = true := by
  unfold isAnswerByte at h
  simp only [Bool.and_eq_true] at h
  exact h.1

/-- The node of the host observes a message. -/
theorem LinInv.observe {b : Build} {own : IpAddr → Option Nat} {hs : List (Handler S)} {objs : List Object} {j : Nat} {log : List Entry} {n n' : Net S}
    {l : List (Nat × Access)} (h : LinInv own hs objs j log n l) (hp : ∀ h ∈ hs, Passive h) (hst : ∀ h ∈ hs, Stateless h)
    {ω : HashOrder} {ok : Nat → Bool} {msg : Message} {x : Node S} {outs : List Out}
    (ho : (n.hosts j).node.observe b ω ok msg = .ok (x, outs)) (hn : (n'.hosts j).node = x) {k : Nat} {r : Tx}
    (hr : Entry.put k (.tx r) ∈ log) (hreads : Reads msg r.bytes) (hv : (frameOf msg).Valid) (hip : msg.sender.ip = r.iface)
    (hto : ∀ j', own r.to.ip = some j' → j = j') :
    LinInv own hs objs j (log ++ outs.map (.put j)) n' (l ++ [(log.length, .request msg)]) := by
  have hp' : ∀ h ∈ (n.hosts j).node.handlers, Passive h := by rw [h.handlers]; exact hp
  have hst' : ∀ h ∈ (n.hosts j).node.handlers, Stateless h := by rw [h.handlers]; exact hst
  obtain ⟨hal, hk⟩ := observe_alike h.keys ho
  refine ⟨?_, ?_, ?_, ?_, ?_, ?_⟩
  · refine h.ex.extend h.before _ [.request msg] ?_ ?_ ?_
    · intro m hm
      simp only [List.mem_cons, List.not_mem_nil, or_false, Access.request.injEq] at hm
      subst hm
      exact ⟨k, r, hr, hreads, hv, hip, hto⟩
    · rw [setsIn_puts]; simp [setsOf]
    · intro a ha hans
      obtain ⟨_, ha⟩ := mem_put_map ha
      have hmem : a ∈ txs outs := mem_txs.mp ha
      obtain ⟨u, hu⟩ := mem_txs_reply ho hmem
      obtain ⟨hrq, hone, _, _, svc, hh, htxs, hcase⟩ := Node.reply_cases h.keys ho hu
      have hbytes : a.bytes = u.bytes := by rw [htxs] at hmem; exact mem_txs_bytes hmem
      cases hf : findObject (n.hosts j).node.objects msg.deoj with
      | none =>
        have := (C25_silence b ω ok _ x msg outs ho (Or.inr (findObject_none_iff.mp hf))).1
        rw [this] at hu; simp at hu
      | some d =>
        obtain ⟨o, ho', halike⟩ := h.alike.symm.find hf
        have hcode : o.code = msg.deoj := by
          obtain ⟨_, _, _, _, h3⟩ := findObject_split ho'
          exact h3
        refine ⟨msg, k, r, u, o, rfl, hr, observe_answers ho hreads hv hip hmem hans, hreads, hip, hbytes, ?_, ho', ?_⟩
        · obtain ⟨x, hx, rfl⟩ := List.mem_map.mp hu
          obtain ⟨y, hy, he⟩ := List.mem_filterMap.mp hx
          cases y with
          | handed g v =>
            simp only [Option.some.injEq] at he
            subst he
            exact ⟨g, List.mem_map_of_mem hy⟩
          | tx _ => simp at he
          | deliver _ _ => simp at he
        have himpl := h.impl o (by rw [hcode]; exact ho')
        have hreply := judged_reply himpl hp' hst' ho hrq hcode.symm
        rw [h.handlers] at hreply
        rw [valuesAfter_snoc]
        have hdone : Allowed o msg ∧ Approved hs o msg → successByte msg.esvByte = some u.esvByte := by
          intro hx
          have := (hreply.1 hx).1
          rw [hone] at this
          cases hs : successByte msg.esvByte with
          | none => rw [hs] at this; simp at this
          | some s => rw [hs] at this; simp only [List.map_cons, List.map_nil, Option.toList_some, List.cons.injEq, and_true] at this; rw [this]
        have href : ¬ (Allowed o msg ∧ Approved hs o msg) → u.esvByte = errorByte msg.esvByte := by
          intro hx
          have := (hreply.2 hx).1
          rw [hone] at this
          simpa using this
        have himpl' := judged_step himpl hp' hst' ho
        rw [h.handlers] at himpl'
        have hshown : ∀ ps qs : List WProperty, isErrorByte u.esvByte = false → (∀ p ∈ ps, p ∈ readsOf msg) →
            (∀ d', findObject x.objects msg.deoj = some d' → qs = dataOf d' ps) →
            ((valuesAfter hs o (l.map (fun x => x.2))).access hs o (.request msg)).Shown ps qs := by
          intro ps qs hne hps hqs
          obtain ⟨_, d', hd', hattr', hval'⟩ := himpl'
          rw [hcode] at hd'
          rw [hqs d' hd']
          refine ⟨by simp [dataOf], ?_⟩
          intro q hq hm
          obtain ⟨p, hp, rfl⟩ := List.mem_map.mp hq
          simp only [] at hm ⊢
          have hv := hval' p.code hm
          simp only [Values.access]
          rw [← hv]
          rcases hcase with ⟨hsvc, _⟩ | ⟨_, pre, dst, post, dst', ht, hallow, _, _, _, _, _⟩
          · exfalso
            rw [hh.esv, hsvc] at hne
            revert hne; unfold errorByte; repeat' split
            all_goals decide
          · have hdd : dst = d := by
              have := targets_iff_find.mp ⟨pre, post, ht⟩
              rw [hf] at this
              exact (Option.some.inj this).symm
            subst hdd
            obtain ⟨y, hy, _⟩ := hallow.2 p (hps p hp)
            have h1 := hattr' p.code
            rw [halike.2 p.code, hy] at h1
            obtain ⟨y', hy', _⟩ := Option.map_eq_some_iff.mp (h1.trans (Option.map_some ..))
            simp [valuesOf, hy']
        have hnerr : ∀ e, u.esvByte = e → isErrorByte e = false → isErrorByte u.esvByte = false := by
          rintro e rfl h; exact h
        refine ⟨hdone, href, ?_, ?_, ?_, ?_, hh.fmt⟩
        · intro e1 e2
          have hne := hnerr _ e2 (by decide)
          obtain ⟨o', ho'', _, hr1, hr2, hr3⟩ := C29_read_returns_data b ω ok _ x msg outs h.keys ho u hu hne
          refine hshown _ _ hne (by simp [readsOf, e1]) ?_
          intro d' hd'
          rw [ho''] at hd'
          obtain rfl := Option.some.inj hd'
          exact hr1 (Or.inl e1)
        · intro e1 e2
          obtain ⟨o', ho'', _, hr1, hr2, hr3⟩ := C29_read_returns_data b ω ok _ x msg outs h.keys ho u hu (hnerr _ e2 (by decide))
          exact hr2 (Or.inl e1)
        · intro e1 e2
          have hne := hnerr _ e2 (by decide)
          obtain ⟨o', ho'', _, hr1, hr2, hr3⟩ := C29_read_returns_data b ω ok _ x msg outs h.keys ho u hu hne
          refine ⟨(hr3 e1).1, hshown _ _ hne (by simp [readsOf, e1]) ?_⟩
          intro d' hd'
          rw [ho''] at hd'
          obtain rfl := Option.some.inj hd'
          exact (hr3 e1).2
        · intro hsucc h6
          rcases hcase with ⟨_, _, _, h1, h2⟩ | ⟨_, _, _, _, _, _, _, _, _, _, _, _, h1, h2⟩
          · exact ⟨h1, h2⟩
          · rw [h1, h2]; simp [okMessage, h6]
  · intro y hy
    rw [List.length_append]
    rcases List.mem_append.mp hy with hy | hy
    · have := h.before y hy; omega
    · simp only [List.mem_cons, List.not_mem_nil, or_false] at hy
      rw [hy]; simp
  · rw [hn, (observe_frame ho).1]; exact h.handlers
  · rw [hn]; exact h.alike.trans hal
  · rw [hn]; exact hk
  · intro o ho'
    rw [hn, List.map_append]
    have := judged_step (h.impl o ho') hp' hst' ho
    rw [h.handlers] at this
    simp only [List.map_cons, List.map_nil]
    rw [valuesAfter_snoc]
    exact this

/-- The application of the host sets a value. -/
theorem LinInv.setValue {own : IpAddr → Option Nat} {hs : List (Handler S)} {objs : List Object} {j : Nat} {log : List Entry} {n n' : Net S}
    {l : List (Nat × Access)} (h : LinInv own hs objs j log n l) (oc : UInt32) (c : UInt8) (d : List UInt8)
    (hn : (n'.hosts j).node = ((n.hosts j).node.setProperty oc c d).2) :
    LinInv own hs objs j (log ++ [.set j oc c d]) n' (l ++ [(log.length, .set oc c d)]) := by
  refine ⟨?_, ?_, ?_, ?_, ?_, ?_⟩
  · refine h.ex.extend h.before _ [.set oc c d] (by simp) ?_ ?_
    · rw [setsIn_append]; simp [setsOf]
    · intro a ha; simp at ha
  · intro y hy
    rw [List.length_append]
    rcases List.mem_append.mp hy with hy | hy
    · have := h.before y hy; omega
    · simp only [List.mem_cons, List.not_mem_nil, or_false] at hy
      rw [hy]; simp
  · rw [hn, setProperty_frame]; exact h.handlers
  · rw [hn]; exact h.alike.trans (setProperty_alike _ _ _ _)
  · rw [hn]
    unfold Node.setProperty
    split
    · exact h.keys
    · split
      · exact h.keys
      · exact updateObject_keys (fun o ho => Object.setPropertyData_keysOk ho _ _) _ h.keys
  · intro o ho
    rw [hn, List.map_append]
    simp only [List.map_cons, List.map_nil]
    rw [valuesAfter_snoc]
    exact setProperty_access hs (h.impl o ho) oc c d

theorem setsIn_other {j i : Nat} (hij : i ≠ j) (log : List Entry) (op : HostOp S) (outs : List Out) :
    setsIn j (log ++ (setBy i op ++ outs.map (.put i))) = setsIn j log := by
  rw [← List.append_assoc, setsIn_puts, setsIn_append]
  unfold setBy
  split <;> simp [hij]

/-- Every execution has an explanation. -/
theorem logged_inv {b : Build} {db : Database} {own : IpAddr → Option Nat} {j : Nat} {n₀ n : Net S} {log : List Entry}
    (h0 : AtRest own n₀) (hk : ∀ o ∈ (n₀.hosts j).node.objects, KeysOk o)
    (hp : ∀ h ∈ (n₀.hosts j).node.handlers, Passive h) (hst : ∀ h ∈ (n₀.hosts j).node.handlers, Stateless h)
    (h : Logged b db own j n₀ log n) :
    ∃ l, LinInv own (n₀.hosts j).node.handlers (n₀.hosts j).node.objects j log n l := by
  induction h with
  | init =>
    refine ⟨[], ⟨⟨List.Pairwise.nil, by simp, rfl, by simp⟩, by simp, rfl, .refl _, hk, ?_⟩⟩
    intro o ho
    exact ⟨hk, o, ho, fun _ => rfl, fun _ _ => rfl⟩
  | @internal log n n' i outs hx hs hr ih =>
    obtain ⟨l, inv⟩ := ih
    have tinv := traced_inv (plain := False) (fun h => h.elim) h0 (logged_traced hx)
    have nothing : ∀ n'' : Net S, (n''.hosts j).node.objects = (n.hosts j).node.objects →
        (n''.hosts j).node.handlers = (n.hosts j).node.handlers →
        ∃ l, LinInv own (n₀.hosts j).node.handlers (n₀.hosts j).node.objects j (log ++ ([] : List Out).map (.put i)) n'' l :=
      fun n'' h1 h2 => ⟨l, inv.frame _ h1 h2 (setsIn_puts _ _ _ _) (by simp)⟩
    have kill : ∀ k s : Nat, ((((n.setHost k ((n.hosts k).killThread s)).hosts j).node.objects) = (n.hosts j).node.objects) ∧
        ((n.setHost k ((n.hosts k).killThread s)).hosts j).node.handlers = (n.hosts j).node.handlers := by
      intro k s
      unfold Net.setHost
      simp only []
      split
      · rename_i e; subst e; exact ⟨rfl, rfl⟩
      · exact ⟨rfl, rfl⟩
    cases hs with
    | lose l₁ l₂ p hf => exact nothing _ rfl rfl
    | receive l₁ l₂ p s hf hsrv hrun hidle =>
      unfold Net.received
      split
      · exact nothing _ rfl rfl
      · exact nothing _ (kill _ _).1 (kill _ _).2
      · exact nothing _ rfl rfl
    | call l₁ l₂ q o os e h' outs ps hb ht hpo hu hi hps =>
      by_cases hq : q.host = j
      rotate_left
      · refine ⟨l, inv.frame _ ?_ ?_ (setsIn_puts _ _ _ _) ?_⟩
        · simp only [Net.setHost, show ¬ j = q.host from fun e => hq e.symm, if_false]
        · simp only [Net.setHost, show ¬ j = q.host from fun e => hq e.symm, if_false]
        · intro a ha
          exact absurd (mem_put_map ha).1.symm hq
      · subst hq
        obtain ⟨bytes, ⟨k, r, hr', rfl, hip, hto⟩, hreads, hvalid, hfmt, hsz⟩ := tinv.busy q (by rw [hb]; simp)
        have same : h'.node = (n.hosts q.host).node → outs = [] → ∃ l, LinInv own (n₀.hosts q.host).node.handlers
            (n₀.hosts q.host).node.objects q.host (log ++ outs.map (.put q.host)) { n.setHost q.host h' with
              flying := n.flying ++ ps, busy := l₁ ++ { q with todo := os } :: l₂ } l := by
          rintro h1 rfl
          exact nothing _ (by simp only [Net.setHost, if_true]; rw [h1]) (by simp only [Net.setHost, if_true]; rw [h1])
        cases o with
        | node =>
          simp only [Host.invoke] at hi
          obtain ⟨x, hx', hi⟩ := Res.bind_eq_ok.mp hi
          simp only [Res.pure_eq, Res.ok.injEq, Prod.mk.injEq] at hi
          obtain ⟨rfl, rfl⟩ := hi
          unfold Node.observeTry at hx'
          split at hx'
          · simp only [Res.ok.injEq] at hx'
            exact same (by rw [← hx']) (by rw [← hx'])
          · have hx'' : (n.hosts q.host).node.observe b e.ω e.ok q.msg = .ok (x.1, x.2) := hx'
            exact ⟨_, inv.observe hp hst hx'' (by simp only [Net.setHost, if_true]) (mem_putsOf.mp hr') hreads hvalid
              hip.symm hto⟩
        | controller =>
          simp only [Host.invoke] at hi
          obtain ⟨x, hx', hi⟩ := Res.bind_eq_ok.mp hi
          simp only [Res.pure_eq, Res.ok.injEq, Prod.mk.injEq] at hi
          exact same (by rw [← hi.1]) hi.2.symm
        | device =>
          simp only [Host.invoke, Res.ok.injEq, Prod.mk.injEq] at hi
          exact same (by rw [← hi.1]) hi.2.symm
        | user k =>
          simp only [Host.invoke, Res.ok.injEq, Prod.mk.injEq] at hi
          exact same (by rw [← hi.1]) hi.2.symm
    | die l₁ l₂ q o os e hb ht hpo hu hi => exact nothing _ (kill _ _).1 (kill _ _).2
    | crash l₁ l₂ q o os h' hb ht hpo hw ha =>
      obtain ⟨s, l', rfl⟩ := ha.same
      refine nothing _ ?_ ?_
      · simp only [Net.setHost, Net.poison]; split
        · subst_vars; rfl
        · rfl
      · simp only [Net.setHost, Net.poison]; split
        · subst_vars; rfl
        · rfl
    | infected l₁ l₂ q o os hb ht hpo => exact nothing _ (kill _ _).1 (kill _ _).2
    | skip l₁ l₂ q o os hb ht hpo hm => exact nothing _ rfl rfl
    | done l₁ l₂ q hb ht => exact nothing _ rfl rfl
  | @api log n n' i op outs hx hs hr ho hpl hj ih =>
    obtain ⟨l, inv⟩ := ih
    have tinv := traced_inv (plain := False) (fun h => h.elim) h0 (logged_traced hx)
    cases hs with
    | mk h' _ ps hapi hstep hps =>
      by_cases hij : i = j
      rotate_left
      · refine ⟨l, inv.frame _ ?_ ?_ (setsIn_other hij _ _ _) ?_⟩
        · simp only [Net.setHost, show ¬ j = i from fun e => hij e.symm, if_false]
        · simp only [Net.setHost, show ¬ j = i from fun e => hij e.symm, if_false]
        · intro a ha
          rcases List.mem_append.mp ha with ha | ha
          · unfold setBy at ha; split at ha <;> simp at ha
          · exact absurd (mem_put_map ha).1.symm hij
      · subst hij
        rcases steady_frame hapi (hj rfl) hstep with ⟨oc, c, d, rfl, h1, rfl⟩ | ⟨h1, h2, h3⟩
        · refine ⟨_, inv.setValue oc c d (n' := { n.setHost i h' with flying := n.flying ++ ps }) ?_⟩
          simp only [Net.setHost, if_true]
          exact h1
        · refine ⟨l, ?_⟩
          rw [h1, List.nil_append]
          refine inv.frame _ (by simp only [Net.setHost, if_true]; exact h2)
            (by simp only [Net.setHost, if_true]; exact h3) (setsIn_puts _ _ _ _) ?_
          rintro a ha ⟨e, he, hae⟩
          have hmem : a ∈ txs outs := mem_txs.mp (mem_put_map ha).2
          rcases host_api hapi ho hstep with ⟨_, rfl⟩ | ⟨nop, ha', ho', hp', h1, _⟩
          · simp [txs] at hmem
          · obtain ⟨⟨_, _, g3⟩, _⟩ := node_api_puts (tinv.owned i) ha' ho' h1
            obtain ⟨e', he', hae'⟩ := g3 (hp' hpl) a hmem
            rw [he, Option.some.injEq] at he'
            rw [he', hae'] at hae
            simp at hae

/-! ## C83 -/

/-- C83: take a host whose handlers decide by service, property and definitions and do not change objects, and any execution
of a network in which the application of the host sets values but does not change the objects in other ways. All requests
the host takes from the network and all values its application sets form one order, in which each request stands after the
datagram that carried it was sent, and before its answer; every answer, and the values held in the end, are those of the
objects seen as maps of values that are accessed in this order, one access at a time. -/
theorem C83_linearizable (b : Build) (db : Database) (own : IpAddr → Option Nat) (j : Nat) (n₀ n : Net S) (h0 : AtRest own n₀)
    (hk : ∀ o ∈ (n₀.hosts j).node.objects, KeysOk o)
    (hp : ∀ h ∈ (n₀.hosts j).node.handlers, Passive h) (hst : ∀ h ∈ (n₀.hosts j).node.handlers, Stateless h)
    (log : List Entry) (h : Logged b db own j n₀ log n) :
    ∃ l, Explains own (n₀.hosts j).node.handlers (n₀.hosts j).node.objects j log l ∧
      ∀ o, findObject (n₀.hosts j).node.objects o.code = some o → ∀ c, isMapCode c = false →
        (n.hosts j).node.property o.code c = valuesAfter (n₀.hosts j).node.handlers o (l.map (fun x => x.2)) c := by
  obtain ⟨l, inv⟩ := logged_inv h0 hk hp hst h
  refine ⟨l, inv.ex, ?_⟩
  intro o ho c hc
  obtain ⟨_, d, hd, _, hval⟩ := inv.impl o ho
  rw [← hval c hc]
  simp only [Node.property, hd, Object.findProperty, valuesOf]
  cases d.properties c <;> rfl

/-! ## What an order of accesses tells about single values -/

/-- The access leaves the property `c` of `o` alone, or writes `d`. -/
def Writes (o : Object) (c : UInt8) (d : List UInt8) : Access → Prop
  | .request m => m.deoj = o.code → ∀ w ∈ writesOf m, w.code = c → w.data = d
  | .set oc c' d' => oc = o.code → c' = c → d' = d

theorem lastWrite_of_mem {ws : List WProperty} {w : WProperty} (h : w ∈ ws) : ∃ d, lastWrite ws w.code = some d := by
  unfold lastWrite
  have gen : ∀ (ws : List WProperty) (acc : Option (List UInt8)), (acc.isSome ∨ w ∈ ws) →
      (ws.foldl (fun acc x => if x.code = w.code then some x.data else acc) acc).isSome := by
    intro ws
    induction ws with
    | nil => intro acc h; rcases h with h | h; exact h; simp at h
    | cons x xs ih =>
      intro acc h
      simp only [List.foldl_cons]
      apply ih
      rcases h with h | h
      · left; split <;> simp [h]
      · rcases List.mem_cons.mp h with rfl | h
        · left; simp
        · exact Or.inr h
  exact Option.isSome_iff_exists.mp (gen ws none (Or.inr h))

theorem keeps_access {hs : List (Handler S)} {o : Object} {c : UInt8} {d : List UInt8} {v : Values} {a : Access}
    (hw : Writes o c d a) (hv : v c = some d) : v.access hs o a c = some d := by
  cases a with
  | request m =>
    simp only [Values.access, Values.judgedStep]
    split
    · rename_i hx
      unfold Values.write
      cases hl : lastWrite (writesOf m) c with
      | none => exact hv
      | some d' =>
        have := hw hx.2.1 _ (lastWrite_mem hl) rfl
        simp only [] at this
        simp [hv, this]
    · exact hv
  | set oc c' d' =>
    simp only [Values.access]
    split
    · rename_i hx
      rw [write_one]
      split
      · rename_i e
        rw [hv, hw hx e.symm]; rfl
      · exact hv
    · exact hv

theorem keeps_after {hs : List (Handler S)} {o : Object} {c : UInt8} {d : List UInt8} {l : List Access} {v : Values}
    (hw : ∀ a ∈ l, Writes o c d a) (hv : v c = some d) : l.foldl (Values.access hs o) v c = some d := by
  induction l generalizing v with
  | nil => exact hv
  | cons a l ih =>
    simp only [List.foldl_cons]
    exact ih (fun x hx => hw x (List.mem_cons_of_mem _ hx)) (keeps_access (hw a (by simp)) hv)

/-- Values that fit into a frame. -/
def Small (v : Values) : Prop := ∀ c d, v c = some d → d.length ≤ 255

theorem small_write {v : Values} {ws : List WProperty} (hv : Small v) (hw : ∀ w ∈ ws, w.data.length ≤ 255) :
    Small (v.write ws) := by
  intro c d h
  unfold Values.write at h
  cases hl : lastWrite ws c with
  | none => rw [hl] at h; exact hv c d h
  | some d' =>
    rw [hl] at h
    obtain ⟨_, _, rfl⟩ := Option.map_eq_some_iff.mp h
    exact hw _ (lastWrite_mem hl)

theorem small_writesOf {m : Message} (h : (frameOf m).Valid) : ∀ w ∈ writesOf m, w.data.length ≤ 255 := by
  obtain ⟨_, _, _, h⟩ := h
  intro w hw
  unfold writesOf at hw
  split at hw
  · rename_i e
    have : isWriteReadByte m.esvByte = false := by rcases e with e | e <;> rw [e] <;> decide
    simp only [frameOf, this, Bool.false_eq_true, if_false] at h
    exact h.2.2 w hw
  · split at hw
    · rename_i e
      have : isWriteReadByte m.esvByte = true := by rw [e]; decide
      simp only [frameOf, this, if_true] at h
      exact h.2.1.2 w hw
    · simp at hw

theorem small_after {hs : List (Handler S)} {o : Object} {l : List Access} {v : Values} (hv : Small v)
    (hl : ∀ a ∈ l, match a with
      | .request m => (frameOf m).Valid
      | .set oc _ d => oc = o.code → d.length ≤ 255) : Small (l.foldl (Values.access hs o) v) := by
  induction l generalizing v with
  | nil => exact hv
  | cons a l ih =>
    simp only [List.foldl_cons]
    refine ih ?_ (fun x hx => hl x (List.mem_cons_of_mem _ hx))
    have ha := hl a (by simp)
    cases a with
    | request m =>
      simp only [Values.access, Values.judgedStep]
      split
      · exact small_write hv (small_writesOf ha)
      · exact hv
    | set oc c d =>
      simp only [Values.access]
      split
      · rename_i e
        exact small_write hv (by intro w hw; simp only [List.mem_cons, List.not_mem_nil, or_false] at hw; rw [hw]; exact ha e)
      · exact hv

/-- What a receiver reads in a datagram is what was sent, if it fits. -/
theorem reads_frame {m u : Message} {bs : List UInt8} (hr : Reads m bs) (hv : (frameOf m).Valid) (hb : bs = u.bytes)
    (hu : (frameOf u).Valid) (hf : u.isFormat1 = true) (h5 : u.esvByte ≠ 0x5E) : frameOf m = frameOf u := by
  obtain ⟨rest, hrest⟩ := hr
  have he := Message.bytes_eq_encode u hf h5
  have hfull : (frameOf m).encode ++ (rest ++ bs.drop 1024) = (frameOf u).encode ++ [] := by
    rw [← List.append_assoc, ← hrest, List.take_append_drop, List.append_nil, hb, he]
  exact (C06_frame_unambiguous _ _ _ _ hv hu hfull).1

/-- The service and source object of an answer, as read by a receiver. -/
theorem reads_header {m u : Message} {bs : List UInt8} (hr : Reads m bs) (hv : (frameOf m).Valid) (hb : bs = u.bytes) :
    u.esvByte = m.esvByte ∧ u.seoj = m.seoj := by
  obtain ⟨rest, hrest⟩ := hr
  obtain ⟨_, hw2, _, hw4⟩ := wire_frame hv hrest
  obtain ⟨_, hb2, _, hb4⟩ := wire_bytes u
  rw [← hb] at hb2 hb4
  rw [hb4] at hw4
  simp only [Option.some.injEq] at hw4
  refine ⟨hw4, UInt32.toNat_inj.mp ?_⟩
  rw [← hb2, hw2]; rfl

theorem single_props {m u : Message} (h : frameOf m = frameOf u) (hs : isWriteReadByte m.esvByte = false) :
    m.properties = u.properties := by
  have he := congrArg Frame.esv h
  simp only [frameOf] at he
  have := congrArg Frame.body h
  simpa only [frameOf, hs, ← he, Bool.false_eq_true, if_false, Body.single.injEq] using this

theorem mem_sets {j : Nat} {log : List Entry} {t : Nat} {oc : UInt32} {c : UInt8} {d : List UInt8}
    (h : (t, oc, c, d) ∈ setsIn j log) : Entry.set j oc c d ∈ log := by
  unfold setsIn at h
  obtain ⟨x, hx, he⟩ := List.mem_filterMap.mp h
  obtain ⟨e, k⟩ := x
  have hmem : e ∈ log := by
    obtain ⟨h1, h2, h3⟩ := List.mem_zipIdx hx
    rw [h3]; exact List.getElem_mem _
  cases e with
  | put => simp at he
  | set i oc' c' d' =>
    simp only [] at he
    split at he
    · rename_i hi
      simp only [Option.some.injEq, Prod.mk.injEq] at he
      obtain ⟨_, rfl, rfl, rfl⟩ := he
      rw [← hi]; exact hmem
    · simp at he

/-- C83: once a write has been confirmed, reads requested later return it. In any such execution, let all write requests
anybody sends for property `c` of object `o`, and all values the application of the host sets there, carry the data `d`.
If the host has put out a confirmation (service 0x71) that lists `c`, every read response (0x72) from the object that
answers a datagram not yet sent at that time shows `d`. (Data have at most 255 bytes; a read of property maps together with
`c` is left out, since the maps can be too long to be represented.) -/
theorem C83_read_after_write (b : Build) (db : Database) (own : IpAddr → Option Nat) (j : Nat) (n₀ n : Net S)
    (h0 : AtRest own n₀) (hk : ∀ o ∈ (n₀.hosts j).node.objects, KeysOk o)
    (hp : ∀ h ∈ (n₀.hosts j).node.handlers, Passive h) (hst : ∀ h ∈ (n₀.hosts j).node.handlers, Stateless h)
    (log : List Entry) (h : Logged b db own j n₀ log n) (o : Object)
    (ho : findObject (n₀.hosts j).node.objects o.code = some o) (c : UInt8) (d : List UInt8) (hc : isMapCode c = false)
    (hsmall : ∀ c d, valuesOf o c = some d → d.length ≤ 255)
    (hset : ∀ c' d', Entry.set j o.code c' d' ∈ log → d'.length ≤ 255 ∧ (c' = c → d' = d))
    (hreq : ∀ k r m, Entry.put k (.tx r) ∈ log → Reads m r.bytes → (frameOf m).Valid → m.deoj = o.code →
      ∀ w ∈ writesOf m, w.code = c → w.data = d)
    (t₁ t₂ : Nat) (a₁ a₂ : Tx) (m₁ m₂ : Message)
    (h₁ : log[t₁]? = some (.put j (.tx a₁))) (hr₁ : Reads m₁ a₁.bytes) (hv₁ : (frameOf m₁).Valid) (he₁ : m₁.esvByte = 0x71)
    (hs₁ : m₁.seoj = o.code) (hc₁ : ∃ p ∈ m₁.properties, p.code = c)
    (h₂ : log[t₂]? = some (.put j (.tx a₂))) (hr₂ : Reads m₂ a₂.bytes) (hv₂ : (frameOf m₂).Valid) (he₂ : m₂.esvByte = 0x72)
    (hs₂ : m₂.seoj = o.code) (hlater : ∀ k r, Entry.put k (.tx r) ∈ log.take t₁ → ¬ Answers a₂ r)
    (hmaps : ∀ r m, Answers a₂ r → Reads m r.bytes → ∀ p ∈ readsOf m, isMapCode p.code = false) :
    ∀ p ∈ m₂.properties, p.code = c → p.data = d := by
  obtain ⟨l, ex, _⟩ := C83_linearizable b db own j n₀ n h0 hk hp hst log h
  generalize (n₀.hosts j).node.handlers = hs at *
  generalize (n₀.hosts j).node.objects = objs at *
  have answer : ∀ (t : Nat) (a : Tx) (m : Message), log[t]? = some (.put j (.tx a)) → Reads m a.bytes → (frameOf m).Valid →
      isAnswerByte m.esvByte = true → m.seoj = o.code →
      ∃ l₁ t' req l₂ k r u, l = l₁ ++ (t', .request req) :: l₂ ∧ t' ≤ t ∧ Entry.put k (.tx r) ∈ log.take t' ∧
      Answers a r ∧ Reads req r.bytes ∧ (frameOf req).Valid ∧ a.bytes = u.bytes ∧ u.esvByte = m.esvByte ∧
      req.deoj = o.code ∧ Reports hs o (valuesAfter hs o (l₁.map (fun x => x.2) ++ [.request req])) req u := by
    intro t a m ht hr hv he hseoj
    obtain ⟨rest, hrest⟩ := hr
    obtain ⟨_, hw2, _, hw4⟩ := wire_frame hv hrest
    obtain ⟨l₁, t', req, l₂, k, r, u, o', g1, g2, g3, g4, g5, _, g6, _, g7, g8⟩ := ex.answers t a ht ⟨_, hw4, he⟩
    obtain ⟨e1, e2⟩ := reads_header ⟨rest, hrest⟩ hv g6
    obtain ⟨_, r', hr', hreads', hvalid', _⟩ := ex.heard t' req (by rw [g1]; simp)
    have hdeoj : req.deoj = o.code := by
      obtain ⟨rest', hrest'⟩ := g5
      obtain ⟨_, _, hw3, _⟩ := wire_frame hvalid' hrest'
      have := g4.seoj
      rw [hw2, hw3] at this
      simp only [frameOf] at this
      rw [hseoj] at this
      exact (UInt32.toNat_inj.mp this).symm
    rw [hdeoj, ho] at g7
    obtain rfl := Option.some.inj g7
    exact ⟨l₁, t', req, l₂, k, r, u, g1, g2, g3, g4, g5, hvalid', g6, e1, hdeoj, g8⟩
  have hwrites : ∀ x ∈ l, Writes o c d x.2 := by
    intro x hx
    obtain ⟨t, a⟩ := x
    cases a with
    | request m =>
      obtain ⟨k, r, g1, g2, g3, _⟩ := ex.heard t m hx
      exact fun hd => hreq k r m (List.mem_of_mem_take g1) g2 g3 hd
    | set oc c' d' =>
      have : (t, oc, c', d') ∈ setsIn j log := by
        rw [← ex.sets]; exact List.mem_filterMap.mpr ⟨_, hx, rfl⟩
      intro e; subst e
      exact (hset c' d' (mem_sets this)).2
  have hsizes : ∀ (q : List (Nat × Access)), (∀ x ∈ q, x ∈ l) → ∀ a ∈ q.map (fun x => x.2), match a with
      | .request m => (frameOf m).Valid
      | .set oc _ d => oc = o.code → d.length ≤ 255 := by
    intro q hq a ha
    obtain ⟨x, hx, rfl⟩ := List.mem_map.mp ha
    obtain ⟨t, a⟩ := x
    cases a with
    | request m =>
      obtain ⟨k, r, _, _, g3, _⟩ := ex.heard t m (hq _ hx)
      exact g3
    | set oc c' d' =>
      have : (t, oc, c', d') ∈ setsIn j log := by
        rw [← ex.sets]; exact List.mem_filterMap.mpr ⟨_, hq _ hx, rfl⟩
      intro e; subst e
      exact (hset c' d' (mem_sets this)).1
  obtain ⟨A₁, s₁, q₁, A₂, _, _, u₁, ga, gt, _, _, _, gv₁, gb₁, gu₁, gd₁, grep₁⟩ :=
    answer t₁ a₁ m₁ h₁ hr₁ hv₁ (by rw [he₁]; decide) hs₁
  obtain ⟨B₁, s₂, q₂, B₂, k₂, r₂, u₂, gb, _, gput, gans, gread, gv₂, gb₂, gu₂, gd₂, grep₂⟩ :=
    answer t₂ a₂ m₂ h₂ hr₂ hv₂ (by rw [he₂]; decide) hs₂
  rw [he₁] at gu₁
  rw [he₂] at gu₂
  -- the write
  have hok₁ : Allowed o q₁ ∧ Approved hs o q₁ := by
    apply Classical.byContradiction
    intro hx
    exact (errorByte_negative q₁.esvByte).1 ((grep₁.refused hx).symm.trans gu₁)
  have hsv₁ := grep₁.done hok₁
  rw [gu₁] at hsv₁
  have hq₁ : q₁.esvByte = 0x61 := (success_inv _ _ hsv₁).1 rfl
  have hack := grep₁.wrote hq₁ gu₁
  have hempty₁ := grep₁.single (by rw [gu₁]; exact hsv₁) (by rw [hq₁]; decide)
  have hprops₁ : InRange q₁.properties := by
    obtain ⟨_, _, _, hbody⟩ := gv₁
    have : isWriteReadByte q₁.esvByte = false := by rw [hq₁]; decide
    simp only [frameOf, this, Bool.false_eq_true, if_false] at hbody
    exact hbody.2
  have hu₁ : (frameOf u₁).Valid := frameOf_valid _
    ⟨by rw [hack]; exact ⟨by simpa [ackOf] using hprops₁.1, by simp [ackOf]⟩,
     by rw [hempty₁.1]; exact ⟨by simp, by simp⟩, by rw [hempty₁.2]; exact ⟨by simp, by simp⟩⟩
  have hm₁ := single_props (reads_frame hr₁ hv₁ gb₁ hu₁ grep₁.format (by rw [gu₁]; decide)) (by rw [he₁]; decide)
  obtain ⟨p, hp1, hp2⟩ := hc₁
  rw [hm₁, hack] at hp1
  obtain ⟨w, hw1, hw2⟩ := List.mem_map.mp hp1
  have hwc : w.code = c := by rw [← hp2, ← hw2]
  have hwr : writesOf q₁ = q₁.properties := by rw [writesOf, hq₁]; simp
  obtain ⟨d', hd'⟩ := lastWrite_of_mem (ws := writesOf q₁) (by rw [hwr]; exact hw1)
  rw [hwc] at hd'
  have hdd : d' = d := hwrites (s₁, .request q₁) (by rw [ga]; simp) gd₁ _ (lastWrite_mem hd') rfl
  subst hdd
  -- the order
  have htimes : t₁ < s₂ := by
    apply Classical.byContradiction
    intro hx
    refine hlater k₂ r₂ ?_ gans
    exact (List.take_subset_take_left log (by omega : s₂ ≤ t₁)) gput
  have horder : ∃ mid, B₁ = A₁ ++ (s₁, .request q₁) :: mid := by
    have he := gb.symm.trans ga
    rcases split_append he with ⟨s, hx⟩ | ⟨s, s', hx, hy⟩
    · exact ⟨s, hx⟩
    · exfalso
      have hord := ex.ordered
      rw [gb, List.pairwise_append] at hord
      obtain ⟨_, hord, _⟩ := hord
      rw [List.pairwise_cons] at hord
      cases s with
      | nil =>
        simp only [List.nil_append, List.cons.injEq, Prod.mk.injEq] at hy
        have := hy.1.1
        omega
      | cons z s =>
        simp only [List.cons_append, List.cons.injEq] at hy
        have := hord.1 (s₁, .request q₁) (by rw [hy.2]; simp)
        simp only [] at this
        omega
  obtain ⟨mid, hB⟩ := horder
  have hpast : ∀ x ∈ A₁ ++ (s₁, Access.request q₁) :: mid, x ∈ l := by
    intro x hx; rw [gb, hB]; exact List.mem_append_left _ hx
  -- the value
  have hallowed : ∃ p, o.properties c = some p := by
    obtain ⟨p, hp, _⟩ := hok₁.1.1 w (by rw [hwr]; exact hw1)
    exact ⟨p, by rw [← hwc]; exact hp⟩
  have hsome : ∀ (l : List Access) (v : Values), (∃ x, v c = some x) → ∃ x, l.foldl (Values.access hs o) v c = some x := by
    intro l
    induction l with
    | nil => intro v hv; exact hv
    | cons a l ih =>
      intro v hv
      simp only [List.foldl_cons]
      apply ih
      obtain ⟨x, hx⟩ := hv
      have hwrite : ∀ ws : List WProperty, ∃ x, v.write ws c = some x := by
        intro ws
        unfold Values.write
        cases lastWrite ws c with
        | none => exact ⟨x, hx⟩
        | some y => exact ⟨y, by simp [hx]⟩
      cases a with
      | request m =>
        simp only [Values.access, Values.judgedStep]
        split
        · exact hwrite _
        · exact ⟨x, hx⟩
      | set oc c' d' =>
        simp only [Values.access]
        split
        · exact hwrite _
        · exact ⟨x, hx⟩
  have hvalue : valuesAfter hs o (B₁.map (fun x => x.2) ++ [.request q₂]) c = some d' := by
    rw [hB]
    unfold valuesAfter
    rw [List.map_append, List.map_cons, List.append_assoc, List.foldl_append, List.cons_append, List.foldl_cons]
    apply keeps_after
    · intro a ha
      rcases List.mem_append.mp ha with ha | ha
      · obtain ⟨x, hx, rfl⟩ := List.mem_map.mp ha
        exact hwrites x (hpast x (by simp [hx]))
      · simp only [List.mem_cons, List.not_mem_nil, or_false] at ha
        rw [ha]
        exact hwrites (s₂, .request q₂) (by rw [gb]; simp)
    · obtain ⟨p, hp⟩ := hallowed
      obtain ⟨x, hx⟩ := hsome (A₁.map (fun x => x.2)) (valuesOf o) ⟨p.data, by simp [valuesOf, hp]⟩
      simp only [Values.access, Values.judgedStep]
      rw [if_pos ⟨by rw [hq₁]; rfl, gd₁, hok₁⟩]
      unfold Values.write
      rw [hd', hx]; rfl
  -- the read
  have hok₂ : Allowed o q₂ ∧ Approved hs o q₂ := by
    apply Classical.byContradiction
    intro hx
    exact (errorByte_negative q₂.esvByte).2.1 ((grep₂.refused hx).symm.trans gu₂)
  have hsv₂ := grep₂.done hok₂
  rw [gu₂] at hsv₂
  have hq₂ : q₂.esvByte = 0x62 := (success_inv _ _ hsv₂).2.1 rfl
  obtain ⟨hcodes, hshown⟩ := grep₂.read hq₂ gu₂
  have hempty₂ := grep₂.single (by rw [gu₂]; exact hsv₂) (by rw [hq₂]; decide)
  have hprops₂ : InRange q₂.properties := by
    obtain ⟨_, _, _, hbody⟩ := gv₂
    have : isWriteReadByte q₂.esvByte = false := by rw [hq₂]; decide
    simp only [frameOf, this, Bool.false_eq_true, if_false] at hbody
    exact hbody.2
  have hrd : readsOf q₂ = q₂.properties := by rw [readsOf, hq₂]; simp
  have hnomap : ∀ q ∈ u₂.properties, isMapCode q.code = false := by
    intro q hq
    have : q.code ∈ u₂.properties.map (fun q => q.code) := List.mem_map_of_mem hq
    rw [hcodes] at this
    obtain ⟨p, hp, he⟩ := List.mem_map.mp this
    rw [← he]
    exact hmaps r₂ q₂ gans gread p (by rw [hrd]; exact hp)
  have hsm : Small (valuesAfter hs o (B₁.map (fun x => x.2) ++ [.request q₂])) := by
    refine small_after hsmall ?_
    intro a ha
    rcases List.mem_append.mp ha with ha | ha
    · exact hsizes B₁ (by rw [hB]; exact hpast) a ha
    · simp only [List.mem_cons, List.not_mem_nil, or_false] at ha
      rw [ha]; exact gv₂
  have hu₂ : (frameOf u₂).Valid := by
    refine frameOf_valid _ ⟨⟨?_, ?_⟩, by rw [hempty₂.1]; exact ⟨by simp, by simp⟩, by rw [hempty₂.2]; exact ⟨by simp, by simp⟩⟩
    · have := congrArg List.length hcodes
      simp only [List.length_map] at this
      rw [this]; exact hprops₂.1
    · intro q hq
      exact hsm _ _ (hshown q hq (hnomap q hq))
  have hm₂ := single_props (reads_frame hr₂ hv₂ gb₂ hu₂ grep₂.format (by rw [gu₂]; decide)) (by rw [he₂]; decide)
  intro q hq hqc
  rw [hm₂] at hq
  have := hshown q hq (by rw [hqc]; exact hc)
  rw [hqc, hvalue] at this
  exact (Option.some.inj this).symm

/-! ## An execution -/

/-- Calls that are written down in a log by what they put out alone. -/
def Plain (op : HostOp S) : Prop := NoAnswers op ∧ Steady op ∧ ∀ i, setBy i op = []

theorem traced_logged {b : Build} {db : Database} {own : IpAddr → Option Nat} {j : Nat} {n₀ n : Net S}
    {tr : List (Nat × Out)} (h : Traced b db own Plain n₀ tr n) :
    Logged b db own j n₀ (tr.map (fun x => .put x.1 x.2)) n := by
  induction h with
  | init => exact .init
  | internal _ hs hr ih =>
    rw [List.map_append, List.map_map]
    exact .internal ih hs hr
  | api _ hs hr ho hp ih =>
    have := Logged.api ih hs hr ho hp.1 (fun _ => hp.2.1)
    rw [hp.2.2, List.nil_append] at this
    rw [List.map_append, List.map_map]
    exact this

def exAsk : Message := (exPost .ReadRequest).addProperty ⟨0xB0, []⟩
/-- What the object answers to `exAsk` after `exWrite`. -/
def exTold : List UInt8 := [0x10, 0x81, 0, 2, 0x02, 0x90, 0x01, 0, 0, 0, 0x72, 1, 0xB0, 1, 0x42]

/-- Non-vacuity of the theorems above: host 0 writes property 0xB0 of an object of host 1, the host confirms it, host 0
reads the property and gets the value written; then the application of host 1 sets another value. -/
example (db : Database) : ∃ (n₀ n : Net Nat) (log : List Entry) (o : Object) (t₁ t₂ : Nat) (a₁ a₂ : Tx), AtRest exOwn n₀ ∧
    (∀ o ∈ (n₀.hosts 1).node.objects, KeysOk o) ∧ (∀ h ∈ (n₀.hosts 1).node.handlers, Passive h) ∧
    (∀ h ∈ (n₀.hosts 1).node.handlers, Stateless h) ∧ Logged .dev db exOwn 1 n₀ log n ∧
    findObject (n₀.hosts 1).node.objects o.code = some o ∧ log[t₁]? = some (.put 1 (.tx a₁)) ∧ a₁.bytes = exWritten ∧
    log[t₂]? = some (.put 1 (.tx a₂)) ∧ a₂.bytes = exTold ∧ t₁ < t₂ ∧
    log.getLast? = some (.set 1 0x029001 0xB0 [0x43]) ∧ (n.hosts 1).node.property 0x029001 0xB0 = some [0x43] := by
  obtain ⟨o, A, oa, rq, B, ob, A', oa', rq', B', ob', ho, hk, ha, ht, hr, hb, hta, ha', ht', hr', hb', htb', hcode, hpos, hval⟩ :
      ∃ o A oa rq B ob A' oa' rq' B' ob', exLight = .ok o ∧ (∀ k : UInt8, ((o.properties k).all (fun p => p.code == k)) = true) ∧
      exCaller.step .dev (.send ⟨.v4 0xC0A80002, 3610⟩ exWrite allOk) = .ok (A, oa) ∧
      (⟨.v4 0xC0A80001, ⟨.v4 0xC0A80002, 3610⟩, (exWrite.setTid 1).bytes⟩ : Tx) ∈ txs oa ∧
      recvLoop [.datagram (exWrite.setTid 1).bytes ⟨.v4 0xC0A80001, 3610⟩] = ([rq], .running) ∧
      (exCounting o).observe .dev .ascending allOk rq = .ok (B, ob) ∧
      (⟨.v4 0xC0A80002, ⟨.v4 0xC0A80001, 3610⟩, exWritten⟩ : Tx) ∈ txs ob ∧
      A.step .dev (.send ⟨.v4 0xC0A80002, 3610⟩ exAsk allOk) = .ok (A', oa') ∧
      (⟨.v4 0xC0A80001, ⟨.v4 0xC0A80002, 3610⟩, (exAsk.setTid 2).bytes⟩ : Tx) ∈ txs oa' ∧
      recvLoop [.datagram (exAsk.setTid 2).bytes ⟨.v4 0xC0A80001, 3610⟩] = ([rq'], .running) ∧
      B.observe .dev .ascending allOk rq' = .ok (B', ob') ∧
      (⟨.v4 0xC0A80002, ⟨.v4 0xC0A80001, 3610⟩, exTold⟩ : Tx) ∈ txs ob' ∧ o.code = 0x029001 ∧
      (∃ (t₁ t₂ : Nat) (a₁ a₂ : Tx), let tr : List Entry := ((([] : List (Nat × Out)) ++ oa.map (fun o => (0, o)) ++ ob.map (fun o => (1, o)) ++ oa'.map (fun o => (0, o)) ++
          ob'.map (fun o => (1, o))).map (fun x : Nat × Out => Entry.put x.1 x.2))
        tr[t₁]? = some (.put 1 (.tx a₁)) ∧ a₁.bytes = exWritten ∧ tr[t₂]? = some (.put 1 (.tx a₂)) ∧ a₂.bytes = exTold ∧
          t₁ < t₂ ∧ t₂ < tr.length) ∧
      (B'.setProperty 0x029001 0xB0 [0x43]).2.property 0x029001 0xB0 = some [0x43] := by
    refine ⟨_, _, _, _, _, _, _, _, _, _, _, rfl, by decide +kernel, rfl, by decide +kernel, rfl, rfl, by decide +kernel, rfl,
      by decide +kernel, rfl, rfl, by decide +kernel, by decide +kernel, ?_, by decide +kernel⟩
    exact ⟨3, 7, ⟨.v4 0xC0A80002, ⟨.v4 0xC0A80001, 3610⟩, exWritten⟩, ⟨.v4 0xC0A80002, ⟨.v4 0xC0A80001, 3610⟩, exTold⟩, rfl, rfl, rfl,
      rfl, by decide, by decide +kernel⟩
  obtain ⟨t₁, t₂, a₁, a₂, hp1, hp2, hp3, hp4, hp5, hp6⟩ := hpos
  have hq : AtRest exOwn (exPair exCaller (exCounting o)) := by
    refine ⟨rfl, rfl, ?_⟩
    intro i s hs
    unfold exPair at hs
    simp only [] at hs
    split at hs
    · rename_i h; subst h
      simp only [Host.threads, Host.ofNode, exCaller, List.append_nil, List.mem_cons, List.not_mem_nil, or_false] at hs
      rw [hs]; rfl
    · split at hs
      · rename_i h; subst h
        simp only [Host.threads, Host.ofNode, exCounting, List.append_nil, List.mem_cons, List.not_mem_nil, or_false] at hs
        rw [hs]; rfl
      · simp [Host.threads, Manager.new] at hs
  have hB : B.transport = (exCounting o).transport := (observe_frame hb).2.1
  have t1 := traced_node (b := .dev) (db := db) (own := exOwn) (rule := Plain) (.init)
    (n₀ := exPair exCaller (exCounting o))
    0 [⟨⟨.v4 0xC0A80001, 3610⟩, 1, 0, (exWrite.setTid 1).bytes⟩]
    ha trivial trivial ⟨show isAnswerByte _ = false by decide +kernel, trivial, fun _ => rfl⟩ (by
    intro p hp
    simp only [List.mem_cons, List.not_mem_nil, or_false] at hp
    subst hp
    exact ⟨_, mem_txs.mpr ht, rfl, rfl, by intro j hj; revert hj; simp [exOwn]⟩)
  have t2 := traced_round t1 (p := ⟨⟨.v4 0xC0A80001, 3610⟩, 1, 0, (exWrite.setTid 1).bytes⟩)
    (rest := []) (s := ⟨.v4 0xC0A80002, [.node], .running⟩) [] rfl rfl rfl
    (by simp [Net.setHost, exPair, Host.ofNode, Host.threads, exCounting]) rfl rfl hr
    (by simpa [Net.setHost, exPair, Host.ofNode] using hb) (by simp)
  have t3 := traced_node (op := .send ⟨.v4 0xC0A80002, 3610⟩ exAsk allOk) t2 0 [⟨⟨.v4 0xC0A80001, 3610⟩, 1, 0, (exAsk.setTid 2).bytes⟩]
    (by simpa [Net.setHost] using ha') trivial trivial
    ⟨show isAnswerByte _ = false by decide +kernel, trivial, fun _ => rfl⟩ (by
    intro p hp
    simp only [List.mem_cons, List.not_mem_nil, or_false] at hp
    subst hp
    exact ⟨_, mem_txs.mpr ht', rfl, rfl, by intro j hj; revert hj; simp [exOwn]⟩)
  have t4 := traced_round t3 (p := ⟨⟨.v4 0xC0A80001, 3610⟩, 1, 0, (exAsk.setTid 2).bytes⟩)
    (rest := []) (s := ⟨.v4 0xC0A80002, [.node], .running⟩) [] rfl rfl rfl
    (by simp [Net.setHost, Host.threads, hB, exCounting]) rfl rfl hr'
    (by simpa [Net.setHost] using hb') (by simp)
  have l4 := traced_logged (j := 1) t4
  have l5 := Logged.api (i := 1) (op := .node (.setProperty 0x029001 0xB0 [0x43])) l4
    (.mk _ _ [] trivial rfl (by intro p hp; simp at hp)) (by intro p hp; simp at hp) trivial trivial
    (fun _ => trivial)
  refine ⟨_, _, _, o, t₁, t₂, a₁, a₂, hq, ?_, ?_, ?_, l5, ?_, ?_, hp2, ?_, hp4, hp5, ?_, ?_⟩
  · intro x hx
    have hx : x = o := by simpa [exPair, Host.ofNode, exCounting] using hx
    subst hx
    intro k p hp
    have := hk k
    rw [hp] at this
    simpa using this
  · intro h hh
    have : h = countCalls := by simpa [exPair, Host.ofNode, exCounting] using hh
    subst this
    exact fun _ _ _ _ => rfl
  · intro h hh
    have : h = countCalls := by simpa [exPair, Host.ofNode, exCounting] using hh
    subst this
    exact fun _ _ _ _ _ _ _ _ => rfl
  · simp [exPair, Host.ofNode, exCounting, findObject]
  · rw [List.getElem?_append_left (Nat.lt_trans hp5 hp6)]; exact hp1
  · rw [List.getElem?_append_left hp6]; exact hp3
  · simp [setBy]
  · simpa [Net.setHost] using hval

end Uecho
