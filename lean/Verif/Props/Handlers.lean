import Verif.Spec.Handlers
import Verif.Props.History
import Verif.Lemmas.Step
/-!
# Calls of request handlers: C67
-/
namespace Uecho
open Spec
variable {S : Type}

/-- C67: a message changes the application's state only through the handlers, which are called one after the
other, each on all properties of the request in order, and only if the request is for an object of the node that
allows it. -/
theorem C67_app_state (b : Build) (ω : HashOrder) (ok : Nat → Bool) (n n' : Node S) (msg : Message)
    (outs : List Out) (hk : ∀ o ∈ n.objects, KeysOk o) (h : n.observe b ω ok msg = .ok (n', outs)) :
    ((isRequestByte msg.esvByte = false ∨ ∀ pre dst post, Targets n msg pre dst post → ¬ Allowed dst msg) →
      n'.app = n.app) ∧
    ∀ pre dst post, isRequestByte msg.esvByte = true → Targets n msg pre dst post → Allowed dst msg →
      ∃ copy, SameProps copy.properties dst.properties ∧ copy.code = dst.code ∧
        n'.app = (afterHandlers msg.esv msg.properties n.handlers (copy, n.app)).2 := by
  have key : ∀ pre dst post, isRequestByte msg.esvByte = true → Targets n msg pre dst post →
      ∃ copy, SameProps copy.properties dst.properties ∧ copy.code = dst.code ∧
        (¬ Allowed dst msg → n'.app = n.app) ∧
        (Allowed dst msg → n'.app = (afterHandlers msg.esv msg.properties n.handlers (copy, n.app)).2) := by
    intro pre dst post hr ht
    obtain ⟨copy, app, hs, hid, happ, hc⟩ := Node.observe_target ht (hk dst (by rw [ht.split]; simp)) hr h
    have : n'.app = app := by
      rcases hc with ⟨_, hn, _⟩ | ⟨_, dst', _, _, _, ⟨_, hn, _⟩ | ⟨svc, _, hn, _⟩⟩
      · rw [hn, Node.updateTid_frame]
      · rw [hn]
      · rw [hn, Node.updateTid_frame]
    exact ⟨copy, hs, Node.code_of_sameId hid, fun hna => this.trans (happ.1 hna), fun ha => this.trans (happ.2 ha)⟩
  refine ⟨?_, fun pre dst post hr ht ha => ?_⟩
  · intro hs
    cases hr : isRequestByte msg.esvByte with
    | false => exact (C25_silence b ω ok n n' msg outs h (Or.inl hr)).2.2.2.1
    | true =>
      rcases targets_or_silent n msg with ⟨pre, dst, post, ht⟩ | hno
      · obtain ⟨_, _, _, h1, _⟩ := key pre dst post hr ht
        rcases hs with hs | hs
        · simp [hr] at hs
        · exact h1 (hs _ _ _ ht)
      · exact (C25_silence b ω ok n n' msg outs h (Or.inr hno)).2.2.2.1
  · obtain ⟨copy, h1, h2, _, h3⟩ := key pre dst post hr ht
    exact ⟨copy, h1, h2, h3 ha⟩

theorem afterHandler_quiet {h : Handler S} (hq : Quiet h) (esv : ESV) (ps : List WProperty) (x : Object × S) :
    (afterHandler h esv ps x).2 = x.2 := by
  induction ps generalizing x with
  | nil => rfl
  | cons p ps ih => rw [afterHandler, ih]; exact hq _ _ _ _

theorem afterHandler_passive' {h : Handler S} (hp : Passive h) (esv : ESV) (ps : List WProperty) (x : Object × S) :
    (afterHandler h esv ps x).1 = x.1 := by
  induction ps generalizing x with
  | nil => rfl
  | cons p ps ih => rw [afterHandler, ih]; exact hp _ _ _ _

theorem afterHandlers_quiet {hs : List (Handler S)} (hq : ∀ h ∈ hs, Quiet h) (esv : ESV) (ps : List WProperty)
    (x : Object × S) : (afterHandlers esv ps hs x).2 = x.2 := by
  induction hs generalizing x with
  | nil => rfl
  | cons h hs ih =>
    rw [afterHandlers, ih (fun h hm => hq h (by simp [hm])), afterHandler_quiet (hq h (by simp))]

theorem afterHandlers_append (esv : ESV) (ps : List WProperty) (hs hs' : List (Handler S)) (x : Object × S) :
    afterHandlers esv ps (hs ++ hs') x = afterHandlers esv ps hs' (afterHandlers esv ps hs x) := by
  induction hs generalizing x with
  | nil => rfl
  | cons h hs ih => rw [List.cons_append, afterHandlers, afterHandlers, ih]

theorem afterHandler_recorder (accept : UInt32 → ESV → WProperty → Bool) (esv : ESV) (ps : List WProperty)
    (o : Object) (log : List HandlerCall) :
    (afterHandler (recorder accept) esv ps (o, log)).2 = log ++ ps.map (fun p => (o.code, esv, p)) := by
  induction ps generalizing log with
  | nil => simp [afterHandler]
  | cons p ps ih =>
    rw [afterHandler]
    show (afterHandler (recorder accept) esv ps (o, log ++ [(o.code, esv, p)])).2 = _
    rw [ih]; simp

/-- C67: exactly the calls a handler sees, whatever it answers and whatever the other handlers answer: one per
property of each request that is allowed by the object it is for, in order, and no others. (The other handlers
may do anything but write into this handler's own record, and those before it must leave the object's code
alone; here: they leave the object alone.) -/
theorem C67_calls (b : Build) (ω : HashOrder) (ok : Nat → Bool) (n n' : Node (List HandlerCall))
    (msg : Message) (outs : List Out) (hk : ∀ o ∈ n.objects, KeysOk o)
    (hs hs' : List (Handler (List HandlerCall))) (accept : UInt32 → ESV → WProperty → Bool)
    (hh : n.handlers = hs ++ recorder accept :: hs') (hq : ∀ h ∈ hs ++ hs', Quiet h) (hp : ∀ h ∈ hs, Passive h)
    (h : n.observe b ω ok msg = .ok (n', outs)) : n'.app = n.app ++ callsFor n msg := by
  obtain ⟨h1, h2⟩ := C67_app_state b ω ok n n' msg outs hk h
  unfold callsFor
  split
  · rename_i hc
    obtain ⟨hr, pre, dst, post, ht, ha⟩ := hc
    obtain ⟨copy, _, hcode, happ⟩ := h2 pre dst post hr ht ha
    rw [happ, hh, afterHandlers_append, afterHandlers,
      afterHandlers_quiet (fun h hm => hq h (List.mem_append_right _ hm))]
    have e1 := afterHandlers_passive hp msg.esv msg.properties (copy, n.app)
    have e2 := afterHandlers_quiet (fun h hm => hq h (List.mem_append_left _ hm)) msg.esv msg.properties (copy, n.app)
    rw [show afterHandlers msg.esv msg.properties hs (copy, n.app) = (copy, n.app) from Prod.ext e1 e2,
      afterHandler_recorder, hcode, ht.code]
  · rename_i hc
    rw [List.append_nil]
    apply h1
    cases hr : isRequestByte msg.esvByte with
    | false => exact Or.inl rfl
    | true => exact Or.inr (fun pre dst post ht ha => hc ⟨hr, pre, dst, post, ht, ha⟩)

/-- Two objects with the same code and the same properties up to data. -/
def Alike (o o' : Object) : Prop :=
  o'.code = o.code ∧ ∀ c, (o'.properties c).map attrsOf = (o.properties c).map attrsOf

theorem Alike.refl (o : Object) : Alike o o := ⟨rfl, fun _ => rfl⟩
theorem Alike.symm {o o' : Object} (h : Alike o o') : Alike o' o := ⟨h.1.symm, fun c => (h.2 c).symm⟩
theorem Alike.trans {o o' o'' : Object} (h : Alike o o') (h' : Alike o' o'') : Alike o o'' :=
  ⟨h'.1.trans h.1, fun c => (h'.2 c).trans (h.2 c)⟩

/-- Pointwise. -/
def AlikeAll : List Object → List Object → Prop
  | [], [] => True
  | o :: l, o' :: l' => Alike o o' ∧ AlikeAll l l'
  | _, _ => False

theorem AlikeAll.refl : ∀ l, AlikeAll l l
  | [] => trivial
  | o :: l => ⟨Alike.refl o, AlikeAll.refl l⟩

theorem AlikeAll.symm : ∀ {l l'}, AlikeAll l l' → AlikeAll l' l
  | [], [], _ => trivial
  | _ :: _, _ :: _, h => ⟨h.1.symm, h.2.symm⟩
  | [], _ :: _, h => h.elim
  | _ :: _, [], h => h.elim

theorem AlikeAll.trans : ∀ {l l' l''}, AlikeAll l l' → AlikeAll l' l'' → AlikeAll l l''
  | [], [], _, _, h => h
  | _ :: _, _ :: _, _ :: _, h, h' => ⟨h.1.trans h'.1, h.2.trans h'.2⟩
  | _ :: _, _ :: _, [], _, h' => h'.elim
  | [], _ :: _, _, h, _ => h.elim
  | _ :: _, [], _, h, _ => h.elim

theorem AlikeAll.replace {dst dst' : Object} (h : Alike dst dst') (post : List Object) :
    ∀ pre, AlikeAll (pre ++ dst :: post) (pre ++ dst' :: post)
  | [] => ⟨h, AlikeAll.refl post⟩
  | o :: pre => ⟨Alike.refl o, AlikeAll.replace h post pre⟩

theorem AlikeAll.find {c : UInt32} : ∀ {l l'}, AlikeAll l l' → ∀ {o}, findObject l c = some o →
    ∃ o', findObject l' c = some o' ∧ Alike o o'
  | [], [], _, _, h => by simp [findObject] at h
  | x :: l, x' :: l', ha, o, h => by
    unfold findObject at h ⊢
    rw [List.find?_cons] at h ⊢
    rw [ha.1.1]
    cases hx : x.code == c with
    | true => rw [hx] at h; simp only [Option.some.injEq] at h; subst h; exact ⟨x', rfl, ha.1⟩
    | false => rw [hx] at h; exact AlikeAll.find ha.2 h
  | [], _ :: _, h, _, _ => h.elim
  | _ :: _, [], h, _, _ => h.elim

/-- Whatever message arrives and whatever the handlers do: the objects keep their codes and attributes. -/
theorem observe_alike {b : Build} {ω : HashOrder} {ok : Nat → Bool} {n n' : Node S} {msg : Message}
    {outs : List Out} (hk : ∀ o ∈ n.objects, KeysOk o) (h : n.observe b ω ok msg = .ok (n', outs)) :
    AlikeAll n.objects n'.objects ∧ ∀ o ∈ n'.objects, KeysOk o := by
  have same : n'.objects = n.objects → AlikeAll n.objects n'.objects ∧ ∀ o ∈ n'.objects, KeysOk o := by
    intro e; rw [e]; exact ⟨AlikeAll.refl _, hk⟩
  cases hr : isRequestByte msg.esvByte with
  | false => exact same (C25_silence b ω ok n n' msg outs h (Or.inl hr)).2.2.1
  | true =>
    rcases targets_or_silent n msg with ⟨pre, dst, post, ht⟩ | hno
    rotate_left
    · exact same (C25_silence b ω ok n n' msg outs h (Or.inr hno)).2.2.1
    obtain ⟨copy, app, _, _, _, hc⟩ := Node.observe_target ht (hk dst (by rw [ht.split]; simp)) hr h
    rcases hc with ⟨_, hn, _⟩ | ⟨_, dst', hw, hk', hcode, hc⟩
    · exact same (by rw [hn, Node.updateTid_objects])
    · have ho : n'.objects = pre ++ dst' :: post := by
        rcases hc with ⟨_, hn, _⟩ | ⟨svc, _, hn, _⟩
        · rw [hn]
        · rw [hn, Node.updateTid_objects]
      rw [ho, ht.split]
      refine ⟨AlikeAll.replace ⟨hcode, ?_⟩ post pre, ?_⟩
      · intro c; rw [hw, Node.writeLoop_attrs, Node.copyBack_attrs]
      · exact keysOk_replace (by rw [← ht.split]; exact hk) hk'

theorem targets_iff_find {n : Node S} {m : Message} {dst : Object} :
    (∃ pre post, Targets n m pre dst post) ↔ findObject n.objects m.deoj = some dst := by
  constructor
  · rintro ⟨pre, post, ht⟩
    rw [ht.split]; exact findObject_append ht.first ht.code
  · intro h
    obtain ⟨pre, post, h1, h2, h3⟩ := findObject_split h
    exact ⟨pre, post, h1, h2, h3⟩

theorem callsFor_alike {S' : Type} {n : Node S} {n' : Node S'} (h : AlikeAll n.objects n'.objects) (m : Message) :
    callsFor n' m = callsFor n m := by
  have key : ∀ {S₁ S₂ : Type} {n₁ : Node S₁} {n₂ : Node S₂}, AlikeAll n₁.objects n₂.objects →
      (∃ pre dst post, Targets n₁ m pre dst post ∧ Allowed dst m) →
      ∃ pre dst post, Targets n₂ m pre dst post ∧ Allowed dst m := by
    intro S₁ S₂ n₁ n₂ hal ⟨pre, dst, post, ht, ha⟩
    obtain ⟨o', h1, h2⟩ := hal.find (targets_iff_find.mp ⟨pre, post, ht⟩)
    obtain ⟨pre', post', ht'⟩ := targets_iff_find.mpr h1
    exact ⟨pre', o', post', ht', (allowed_congr h2.2 m).mpr ha⟩
  unfold callsFor
  have : (isRequestByte m.esvByte = true ∧ ∃ pre dst post, Targets n' m pre dst post ∧ Allowed dst m) ↔
      (isRequestByte m.esvByte = true ∧ ∃ pre dst post, Targets n m pre dst post ∧ Allowed dst m) :=
    ⟨fun ⟨a, b⟩ => ⟨a, key h.symm b⟩, fun ⟨a, b⟩ => ⟨a, key h b⟩⟩
  by_cases hc : isRequestByte m.esvByte = true ∧ ∃ pre dst post, Targets n m pre dst post ∧ Allowed dst m
  · rw [if_pos hc, if_pos (this.mpr hc)]
  · rw [if_neg hc, if_neg (fun h => hc (this.mp h))]

/-- C67 for every history of received messages: the calls a handler has seen are those of the processed
messages, in order, judged by the codes and attributes the node's objects had at the beginning. -/
theorem C67_calls_history (b : Build) (n n' : Node (List HandlerCall)) (l : List Arrival) (outs : List Out)
    (hk : ∀ o ∈ n.objects, KeysOk o) (hs hs' : List (Handler (List HandlerCall)))
    (accept : UInt32 → ESV → WProperty → Bool) (hh : n.handlers = hs ++ recorder accept :: hs')
    (hq : ∀ h ∈ hs ++ hs', Quiet h) (hp : ∀ h ∈ hs, Passive h) (h : n.run b (arrivals l) = .ok (n', outs)) :
    n'.app = n.app ++ (processed l).flatMap (callsFor n) := by
  have gen : ∀ (m m' : Node (List HandlerCall)) (outs : List Out), AlikeAll n.objects m.objects →
      (∀ o ∈ m.objects, KeysOk o) → m.handlers = n.handlers → m.run b (arrivals l) = .ok (m', outs) →
      m'.app = m.app ++ (processed l).flatMap (callsFor n) := by
    clear h
    induction l with
    | nil =>
      intro m m' outs _ _ _ h
      simp only [arrivals, List.map_nil, Node.run, Res.ok.injEq, Prod.mk.injEq] at h
      rw [← h.1]; simp [processed]
    | cons a l ih =>
      intro m m' outs hal hkm hhm h
      simp only [arrivals, List.map_cons] at h
      obtain ⟨m₁, o₁, o₂, h1, h2, rfl⟩ := run_cons.mp h
      simp only [Node.step, Node.observeTry] at h1
      cases hf : a.free with
      | false =>
        simp only [hf, Bool.not_false, if_true, Res.ok.injEq, Prod.mk.injEq] at h1
        obtain ⟨rfl, _⟩ := h1
        have := ih m m' _ hal hkm hhm h2
        simpa [processed, hf] using this
      | true =>
        simp only [hf, Bool.not_true, Bool.false_eq_true, if_false] at h1
        obtain ⟨hal', hk'⟩ := observe_alike hkm h1
        have e := C67_calls b _ _ m m₁ a.msg _ hkm hs hs' accept (hhm.trans hh) hq hp h1
        rw [ih m₁ m' _ (hal.trans hal') hk' ((observe_frame h1).1.trans hhm) h2, e, callsFor_alike hal]
        simp [processed, hf]
  exact gen n n' outs (AlikeAll.refl _) hk rfl h

/-- Non-vacuity: a refusing recorder on a node with object 0x029001; a write of 0x80 and 0xB0 causes two calls,
a write that includes a missing property none. -/
example : ∃ o, exObject [0x80, 0xB0] = .ok o ∧
    let n : Node (List HandlerCall) :=
      ⟨exTransport, [o], 5, none, 0, [nodeHandler, recorder (fun _ _ _ => false)], [], []⟩
    (∃ r, n.observe .dev .ascending allOk (((exRequest .WriteRequest 7).addProperty ⟨0x80, [0x31]⟩).addProperty
        ⟨0xB0, [1]⟩) = .ok r ∧
      r.1.app = [(0x029001, .WriteRequest, ⟨0x80, [0x31]⟩), (0x029001, .WriteRequest, ⟨0xB0, [1]⟩)]) ∧
    ∃ r, n.observe .dev .ascending allOk (((exRequest .WriteRequest 7).addProperty ⟨0x80, [0x31]⟩).addProperty
        ⟨0xB7, [1]⟩) = .ok r ∧ r.1.app = [] := by
  refine ⟨_, rfl, ⟨_, rfl, ?_⟩, _, rfl, ?_⟩ <;> decide +kernel

/-! ## C35 for handlers that decide -/

theorem accepts_stateless {h : Handler S} (hs : Stateless h) (hp : Passive h) {o : Object} {esv : ESV}
    {ps : List WProperty} {copy : Object} (ha : Alike o copy) {s : S} :
    Accepts h esv ps copy s ↔ ∀ p ∈ ps, ∀ s, (h s o esv p).1 = true := by
  induction ps generalizing s with
  | nil => simp [Accepts]
  | cons p ps ih =>
    simp only [Accepts, List.mem_cons, forall_eq_or_imp]
    rw [hp s copy esv p, ih]
    have : (h s copy esv p).1 = true ↔ ∀ s, (h s o esv p).1 = true :=
      ⟨fun h s' => by rw [← hs s' s o copy esv p ha.1 ha.2]; exact h, fun h => by rw [hs s s o copy esv p ha.1 ha.2]; exact h s⟩
    rw [this]

theorem someAccepts_stateless {hs : List (Handler S)} (hst : ∀ h ∈ hs, Stateless h) (hp : ∀ h ∈ hs, Passive h)
    {o : Object} {esv : ESV} {ps : List WProperty} {x : Object × S} (ha : Alike o x.1) :
    SomeAccepts esv ps hs x ↔ ∃ h ∈ hs, ∀ p ∈ ps, ∀ s, (h s o esv p).1 = true := by
  induction hs generalizing x with
  | nil => simp [SomeAccepts]
  | cons h hs ih =>
    simp only [SomeAccepts, List.mem_cons, exists_eq_or_imp]
    rw [accepts_stateless (hst h (by simp)) (hp h (by simp)) ha,
      ih (fun h hm => hst h (by simp [hm])) (fun h hm => hp h (by simp [hm]))
        (by rw [afterHandler_passive' (hp h (by simp))]; exact ha)]

theorem accepted_stateless {n : Node S} (hst : ∀ h ∈ n.handlers, Stateless h) (hp : ∀ h ∈ n.handlers, Passive h)
    {o dst copy : Object} {msg : Message} (hd : Alike o dst) (hs : SameProps copy.properties dst.properties)
    (hc : copy.code = dst.code) :
    Accepted n msg dst copy ↔ Allowed o msg ∧ Approved n.handlers o msg := by
  have hal : Alike o copy := hd.trans ⟨hc, fun c => (hs c).2⟩
  unfold Accepted Approved
  rw [allowed_congr hd.2 msg, someAccepts_stateless (x := (copy, n.app)) hst hp hal]

theorem judged_step {b : Build} {ω : HashOrder} {ok : Nat → Bool} {n n' : Node S} {msg : Message}
    {outs : List Out} {o : Object} {v : Values} (hi : Implements n o v)
    (hp : ∀ h ∈ n.handlers, Passive h) (hst : ∀ h ∈ n.handlers, Stateless h)
    (h : n.observe b ω ok msg = .ok (n', outs)) :
    Implements n' o (v.judgedStep n.handlers o msg) := by
  obtain ⟨hk, d, hd, hattr, hval⟩ := hi
  have hk' := (observe_alike hk h).2
  have still : n'.objects = n.objects →
      ¬ (isRequestByte msg.esvByte = true ∧ msg.deoj = o.code ∧ Allowed o msg ∧ Approved n.handlers o msg) →
      Implements n' o (v.judgedStep n.handlers o msg) := by
    intro e hn
    refine ⟨hk', d, by rw [e]; exact hd, hattr, ?_⟩
    simp only [Values.judgedStep, hn, if_false]; exact hval
  have hdcode : d.code = o.code := by
    obtain ⟨_, _, _, _, h3⟩ := findObject_split hd
    exact h3
  cases hr : isRequestByte msg.esvByte with
  | false => exact still (C25_silence b ω ok n n' msg outs h (Or.inl hr)).2.2.1 (by simp [hr])
  | true =>
    rcases targets_or_silent n msg with ⟨pre, dst, post, ht⟩ | hno
    rotate_left
    · refine still (C25_silence b ω ok n n' msg outs h (Or.inr hno)).2.2.1 ?_
      rintro ⟨_, he, _⟩
      obtain ⟨p1, p2, h1, _, h3⟩ := findObject_split hd
      exact hno d (by rw [h1]; simp) (h3.trans he.symm)
    have hkd : KeysOk dst := hk dst (by rw [ht.split]; simp)
    obtain ⟨copy, hs, hc, hacc, _⟩ := passive_write b ω ok n n' msg outs pre post dst ht hkd hr hp h
    obtain ⟨copy', app, hs', hid', _, hcase⟩ := Node.observe_target ht hkd hr h
    by_cases hdo : msg.deoj = o.code
    · have hdd : dst = d := by
        rw [ht.split, findObject_append (c := o.code) (by rw [← hdo]; exact ht.first)
          (ht.code.trans hdo)] at hd
        exact Option.some.inj hd
      subst hdd
      have hal : Alike o dst := ⟨hdcode, hattr⟩
      rcases Classical.em (Allowed o msg ∧ Approved n.handlers o msg) with hok | hok
      · obtain ⟨dst', ho', hcode', hsame⟩ := hacc ((accepted_stateless hst hp hal hs hc).mpr hok)
        refine ⟨hk', dst', ?_, ?_, ?_⟩
        · rw [ho', findObject_append (by rw [← hdo]; exact ht.first) (hcode'.trans (ht.code.trans hdo))]
        · intro c
          rw [attrs_write hsame c, ← hattr c]
        · intro c hm
          rw [valuesOf_write hsame c hm]
          simp only [Values.judgedStep, hr, hdo, hok, and_self, if_true]
          unfold Values.write
          rw [hval c hm]
      · rcases hcase with ⟨_, hn, _⟩ | ⟨hacc', _⟩
        · exact still (by rw [hn, Node.updateTid_objects]) (fun hx => hok hx.2.2)
        · exact absurd ((accepted_stateless hst hp hal hs' (Node.code_of_sameId hid')).mp hacc') hok
    · have hne : ¬ (isRequestByte msg.esvByte = true ∧ msg.deoj = o.code ∧ Allowed o msg ∧ Approved n.handlers o msg) :=
        fun hx => hdo hx.2.1
      rcases hcase with ⟨_, hn, _⟩ | ⟨_, dst', _, _, hcode', hcase⟩
      · exact still (by rw [hn, Node.updateTid_objects]) hne
      · have ho' : n'.objects = pre ++ dst' :: post := by
          rcases hcase with ⟨_, hn, _⟩ | ⟨svc, _, hn, _⟩
          · rw [hn]
          · rw [hn, Node.updateTid_objects]
        refine ⟨hk', d, ?_, hattr, ?_⟩
        · rw [ho', findObject_replace_other hcode' (by rw [ht.code]; exact hdo), ← ht.split]; exact hd
        · simp only [Values.judgedStep, hne, if_false]; exact hval

theorem judged_run {b : Build} {n n' : Node S} {l : List Arrival} {outs : List Out} {o : Object}
    {v : Values} (hi : Implements n o v) (hp : ∀ h ∈ n.handlers, Passive h)
    (hst : ∀ h ∈ n.handlers, Stateless h) (h : n.run b (arrivals l) = .ok (n', outs)) :
    Implements n' o ((processed l).foldl (Values.judgedStep n.handlers o) v) ∧ n'.handlers = n.handlers := by
  induction l generalizing n outs v with
  | nil =>
    simp only [arrivals, List.map_nil, Node.run, Res.ok.injEq, Prod.mk.injEq] at h
    rw [← h.1]; exact ⟨hi, rfl⟩
  | cons a l ih =>
    simp only [arrivals, List.map_cons] at h
    obtain ⟨n₁, o₁, o₂, h1, h2, rfl⟩ := run_cons.mp h
    simp only [Node.step, Node.observeTry] at h1
    cases hf : a.free with
    | false =>
      simp only [hf, Bool.not_false, if_true, Res.ok.injEq, Prod.mk.injEq] at h1
      obtain ⟨rfl, _⟩ := h1
      have := ih hi hp hst h2
      simpa [processed, hf] using this
    | true =>
      simp only [hf, Bool.not_true, Bool.false_eq_true, if_false] at h1
      have h3 := judged_step hi hp hst h1
      have e := (observe_frame h1).1
      have := ih h3 (by rw [e]; exact hp) (by rw [e]; exact hst) h2
      rw [e] at this
      simpa [processed, hf] using this

/-- C35 with arbitrary deciding handlers: take a node with object `o` whose handlers do not modify objects and
decide by service, property, object code and attributes alone. After any sequence of received messages every
property of the object except the property maps holds the value of the abstract map: the initial value
overwritten by the allowed and approved writes of the processed messages, in order. -/
theorem C35_judged_values (b : Build) (n n' : Node S) (l : List Arrival) (outs : List Out) (o : Object)
    (hk : ∀ x ∈ n.objects, KeysOk x) (ho : findObject n.objects o.code = some o)
    (hp : ∀ h ∈ n.handlers, Passive h) (hst : ∀ h ∈ n.handlers, Stateless h)
    (h : n.run b (arrivals l) = .ok (n', outs)) (c : UInt8) (hc : isMapCode c = false) :
    n'.property o.code c = (processed l).foldl (Values.judgedStep n.handlers o) (valuesOf o) c := by
  obtain ⟨⟨_, d, hd, _, hval⟩, _⟩ := judged_run (v := valuesOf o) ⟨hk, o, ho, fun _ => rfl, fun _ _ => rfl⟩ hp hst h
  rw [← hval c hc]
  simp only [Node.property, hd, Object.findProperty, valuesOf]
  cases d.properties c <;> rfl

/-- One request for the device: acceptance and reply. -/
theorem judged_reply {b : Build} {ω : HashOrder} {ok : Nat → Bool} {n₁ n' : Node S} {msg : Message}
    {outs : List Out} {o : Object} {v : Values} (hi : Implements n₁ o v)
    (hp : ∀ h ∈ n₁.handlers, Passive h) (hst : ∀ h ∈ n₁.handlers, Stateless h)
    (h : n₁.observe b ω ok msg = .ok (n', outs)) (hr : isRequestByte msg.esvByte = true) (hdo : msg.deoj = o.code) :
    (Allowed o msg ∧ Approved n₁.handlers o msg →
      (replies outs).map (fun u => u.esvByte) = (successByte msg.esvByte).toList ∧
      ∀ u ∈ replies outs, (∀ r ∈ readsOf msg, isMapCode r.code = false) →
        (msg.esvByte = 0x62 ∨ msg.esvByte = 0x63 → u.properties = (v.judgedStep n₁.handlers o msg).read msg.properties) ∧
        (msg.esvByte = 0x61 ∨ msg.esvByte = 0x74 → u.properties = ackOf msg.properties) ∧
        (msg.esvByte = 0x6E → u.setProperties = ackOf msg.setProperties ∧
          u.getProperties = (v.judgedStep n₁.handlers o msg).read msg.getProperties)) ∧
    (¬ (Allowed o msg ∧ Approved n₁.handlers o msg) →
      (replies outs).map (fun u => u.esvByte) = [errorByte msg.esvByte] ∧ n'.objects = n₁.objects) := by
  have hi' := judged_step hi hp hst h
  obtain ⟨hk₁, d, hd, hattr, hval⟩ := hi
  obtain ⟨_, d', hd', _, hval'⟩ := hi'
  obtain ⟨pre, post, h1, h2, h3⟩ := findObject_split hd
  have ht : Targets n₁ msg pre d post := ⟨h1, by rw [hdo]; exact h2, h3.trans hdo.symm⟩
  have hkd : KeysOk d := hk₁ d (by rw [h1]; simp)
  obtain ⟨copy, hs, hc, hacc, hrej⟩ := C26_accept_iff b ω ok n₁ n' msg outs pre post d ht hkd hr h
  have hiff := accepted_stateless (msg := msg) hst hp ⟨h3, hattr⟩ hs hc
  constructor
  · intro ha'
    have h1 := hacc (hiff.mpr ha')
    refine ⟨h1, fun u hu hmap => ?_⟩
    have hne : isErrorByte u.esvByte = false := by
      have : u.esvByte ∈ (successByte msg.esvByte).toList := by
        rw [← h1]; exact List.mem_map_of_mem hu
      cases hs : successByte msg.esvByte with
      | none => simp [hs] at this
      | some svc =>
        have e : u.esvByte = svc := by simpa [hs] using this
        rw [e]
        have := success_not_error _ _ hs
        simpa using this
    obtain ⟨o', ho', _, hr1, hr2, hr3⟩ := C29_read_returns_data b ω ok n₁ n' msg outs hk₁ h u hu hne
    rw [hdo, hd'] at ho'
    obtain rfl := Option.some.inj ho'
    refine ⟨fun e => ?_, hr2, fun e => ⟨(hr3 e).1, ?_⟩⟩
    · rw [hr1 e]
      apply dataOf_eq_read hval'
      rcases e with e | e <;> simpa [readsOf, e] using hmap
    · rw [(hr3 e).2]
      apply dataOf_eq_read hval'
      simpa [readsOf, e] using hmap
  · intro hna
    have h1 := hrej (fun hx => hna (hiff.mp hx))
    refine ⟨h1, ?_⟩
    have : ∃ u, u ∈ replies outs ∧ u.esvByte = errorByte msg.esvByte := by
      cases hu : replies outs with
      | nil => rw [hu] at h1; simp at h1
      | cons u us =>
        rw [hu] at h1
        simp only [List.map_cons, List.cons.injEq] at h1
        exact ⟨u, by simp, h1.1⟩
    obtain ⟨u, hu, he⟩ := this
    refine C31_error_changes_nothing b ω ok n₁ n' msg outs hk₁ h u hu ?_
    rw [he]; unfold errorByte; repeat' split
    all_goals rfl

/-- C35 with arbitrary deciding handlers: a request for the object that arrives after such a history succeeds
exactly when the object's attributes allow it and a handler approves; the reply to a read of properties other
than the property maps contains exactly the values of the abstract map. -/
theorem C35_judged_replies (b : Build) (ω : HashOrder) (ok : Nat → Bool) (n n₁ n' : Node S) (l : List Arrival)
    (outs₁ outs : List Out) (o : Object) (msg : Message)
    (hk : ∀ x ∈ n.objects, KeysOk x) (ho : findObject n.objects o.code = some o)
    (hp : ∀ h ∈ n.handlers, Passive h) (hst : ∀ h ∈ n.handlers, Stateless h)
    (h₁ : n.run b (arrivals l) = .ok (n₁, outs₁)) (h : n₁.observe b ω ok msg = .ok (n', outs))
    (hr : isRequestByte msg.esvByte = true) (hdo : msg.deoj = o.code) :
    (Allowed o msg ∧ Approved n.handlers o msg →
      (replies outs).map (fun u => u.esvByte) = (successByte msg.esvByte).toList ∧
      ∀ u ∈ replies outs, (∀ r ∈ readsOf msg, isMapCode r.code = false) →
        let v := (processed l ++ [msg]).foldl (Values.judgedStep n.handlers o) (valuesOf o)
        (msg.esvByte = 0x62 ∨ msg.esvByte = 0x63 → u.properties = v.read msg.properties) ∧
        (msg.esvByte = 0x61 ∨ msg.esvByte = 0x74 → u.properties = ackOf msg.properties) ∧
        (msg.esvByte = 0x6E → u.setProperties = ackOf msg.setProperties ∧
          u.getProperties = v.read msg.getProperties)) ∧
    (¬ (Allowed o msg ∧ Approved n.handlers o msg) →
      (replies outs).map (fun u => u.esvByte) = [errorByte msg.esvByte] ∧ n'.objects = n₁.objects) := by
  obtain ⟨hi, hh⟩ := judged_run (v := valuesOf o) ⟨hk, o, ho, fun _ => rfl, fun _ _ => rfl⟩ hp hst h₁
  rw [← hh] at hp hst ⊢
  rw [List.foldl_append, List.foldl_cons, List.foldl_nil]
  rw [← hh] at hi
  generalize ((processed l).foldl (Values.judgedStep n₁.handlers o) (valuesOf o)) = v at hi ⊢
  exact judged_reply hi hp hst h hr hdo

/-- The built-in handler decides by attributes alone. -/
theorem nodeHandler_stateless : Stateless (nodeHandler (S := S)) := by
  intro s s' o o' esv p hc ha
  unfold nodeHandler
  rw [hc]
  have hfind : (o'.findProperty p.code).isNone = (o.findProperty p.code).isNone := by
    have := congrArg Option.isNone (ha p.code)
    simpa [Object.findProperty] using this
  rw [hfind]
  split
  · rfl
  · split
    · split <;> rfl
    · split <;> rfl
    · rfl

/-- Non-vacuity: a handler that only approves of writes to 0xB0. -/
def onlyB0 : Handler Unit := fun s o _ p => (p.code == 0xB0, o, s)

example : ∃ n o, exNode [nodeHandler, onlyB0] = .ok n ∧ n.objects = [o] ∧ findObject n.objects o.code = some o ∧
    (∀ h ∈ n.handlers, Passive h) ∧ (∀ h ∈ n.handlers, Stateless h) ∧
    ∃ r, n.run .dev (arrivals
      [⟨(exRequest .WriteRequest 7).addProperty ⟨0xB0, [0x41]⟩, true, .ascending, allOk⟩,
       ⟨(exRequest .WriteRequest 8).addProperty ⟨0x80, [0x42]⟩, true, .ascending, allOk⟩]) = .ok r ∧
      r.1.property 0x029001 0xB0 = some [0x41] ∧ r.1.property 0x029001 0x80 = some [0x30] := by
  refine ⟨_, _, rfl, rfl, ?_, ?_, ?_, ?_⟩
  · simp [findObject]
  · intro h hm
    simp only [List.mem_cons, List.not_mem_nil, or_false] at hm
    rcases hm with rfl | rfl
    · exact nodeHandler_passive
    · exact fun _ _ _ _ => rfl
  · intro h hm
    simp only [List.mem_cons, List.not_mem_nil, or_false] at hm
    rcases hm with rfl | rfl
    · exact nodeHandler_stateless
    · exact fun _ _ _ _ _ _ _ _ => rfl
  · refine ⟨_, rfl, ?_, ?_⟩ <;> decide +kernel

end Uecho
