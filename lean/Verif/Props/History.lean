import Verif.Props.Remote
/-!
# Histories of remote requests: C35
-/
namespace Uecho
open Spec
variable {S : Type}

/-- The messages of a history the node actually processed: those that found the node's mutex free. -/
def Spec.processed (l : List Arrival) : List Message := (l.filter (fun a => a.free)).map (fun a => a.msg)

/-- Codes with the values of an abstract device. -/
def Spec.Values.read (v : Values) (ps : List WProperty) : List WProperty :=
  ps.map (fun r => ⟨r.code, (v r.code).getD []⟩)

theorem allowed_congr {o o' : Object} (h : ∀ c, (o'.properties c).map attrsOf = (o.properties c).map attrsOf)
    (m : Message) : Allowed o' m ↔ Allowed o m := by
  have key : ∀ {o o' : Object}, (∀ c, (o'.properties c).map attrsOf = (o.properties c).map attrsOf) →
      Allowed o m → Allowed o' m := by
    intro o o' h ⟨h1, h2⟩
    have get : ∀ c p, o.properties c = some p → ∃ p', o'.properties c = some p' ∧ attrsOf p' = attrsOf p := by
      intro c p hp
      have := h c
      rw [hp] at this
      exact Option.map_eq_some_iff.mp this
    refine ⟨fun w hw => ?_, fun r hr => ?_⟩
    · obtain ⟨p, hp, ha, hc⟩ := h1 w hw
      obtain ⟨p', hp', he⟩ := get _ _ hp
      simp only [attrsOf, Property.mk.injEq] at he
      exact ⟨p', hp', by simp [he, ha], by simpa [he] using hc⟩
    · obtain ⟨p, hp, ha⟩ := h2 r hr
      obtain ⟨p', hp', he⟩ := get _ _ hp
      simp only [attrsOf, Property.mk.injEq] at he
      exact ⟨p', hp', by simp [he, ha]⟩
  exact ⟨key (fun c => (h c).symm), key h⟩

/-- The node implements the abstract device with definitions `o` in state `v`. -/
structure Implements (n : Node S) (o : Object) (v : Values) : Prop where
  keys : ∀ x ∈ n.objects, KeysOk x
  object : ∃ d, findObject n.objects o.code = some d ∧
    (∀ c, (d.properties c).map attrsOf = (o.properties c).map attrsOf) ∧
    ∀ c, isMapCode c = false → valuesOf d c = v c

theorem valuesOf_write {dst dst' : Object} {ws : List WProperty}
    (hs : SameProps dst'.properties (fun c => (dst.properties c).map (fun p =>
          match lastWrite ws c with
          | some d => p.setData d
          | none => p))) (c : UInt8) (hm : isMapCode c = false) :
    valuesOf dst' c = (valuesOf dst).write ws c := by
  unfold valuesOf Values.write
  rw [(hs c).1 hm]
  simp only []
  cases lastWrite ws c <;> cases dst.properties c <;> rfl

theorem attrs_write {dst dst' : Object} {ws : List WProperty}
    (hs : SameProps dst'.properties (fun c => (dst.properties c).map (fun p =>
          match lastWrite ws c with
          | some d => p.setData d
          | none => p))) (c : UInt8) :
    (dst'.properties c).map attrsOf = (dst.properties c).map attrsOf := by
  rw [(hs c).2]
  simp only []
  cases lastWrite ws c <;> cases dst.properties c <;> rfl

theorem keysOk_replace {pre post : List Object} {dst dst' : Object} (hk : ∀ x ∈ pre ++ dst :: post, KeysOk x)
    (hk' : KeysOk dst') : ∀ x ∈ pre ++ dst' :: post, KeysOk x := by
  intro x hx
  rcases List.mem_append.mp hx with hx | hx
  · exact hk x (List.mem_append_left _ hx)
  · rcases List.mem_cons.mp hx with rfl | hx
    · exact hk'
    · exact hk x (List.mem_append_right _ (List.mem_cons_of_mem _ hx))

/-- `findObject` looks at the objects in order. -/
theorem findObject_replace_other {pre post : List Object} {dst dst' : Object} {c : UInt32}
    (hc : dst'.code = dst.code) (hne : dst.code ≠ c) :
    findObject (pre ++ dst' :: post) c = findObject (pre ++ dst :: post) c := by
  induction pre with
  | nil => simp [findObject, hc, hne]
  | cons x xs ih =>
    unfold findObject at ih ⊢
    simp only [List.cons_append, List.find?_cons]
    split
    · rfl
    · exact ih

theorem okMessage_reads {u : Message} {dst' : Object} {msg : Message} {svc : UInt8}
    (hp : u.properties = (okMessage dst' msg svc).properties)
    (hg : u.getProperties = (okMessage dst' msg svc).getProperties)
    (hset : u.setProperties = (okMessage dst' msg svc).setProperties) :
    (msg.esvByte = 0x62 ∨ msg.esvByte = 0x63 → u.properties = dataOf dst' msg.properties) ∧
    (msg.esvByte = 0x61 ∨ msg.esvByte = 0x74 → u.properties = ackOf msg.properties) ∧
    (msg.esvByte = 0x6E → u.setProperties = ackOf msg.setProperties ∧
      u.getProperties = dataOf dst' msg.getProperties) := by
  refine ⟨?_, ?_, ?_⟩
  · rintro (e | e) <;> rw [hp] <;> simp [okMessage, e]
  · rintro (e | e) <;> rw [hp] <;> simp [okMessage, e]
  · intro e; rw [hset, hg]; simp [okMessage, e]

theorem dataOf_eq_read {d : Object} {v : Values} {ps : List WProperty}
    (hv : ∀ c, isMapCode c = false → valuesOf d c = v c) (hm : ∀ r ∈ ps, isMapCode r.code = false) :
    dataOf d ps = v.read ps := by
  apply List.map_congr_left
  intro r hr
  have := hv _ (hm r hr)
  unfold valuesOf at this
  rw [this]

/-- One processed message. -/
theorem implements_step {b : Build} {ω : HashOrder} {ok : Nat → Bool} {n n' : Node S} {msg : Message}
    {outs : List Out} {o : Object} {v : Values} (hi : Implements n o v)
    (hp : ∀ h ∈ n.handlers, Passive h) (ha : ∃ h ∈ n.handlers, ∀ s o e p, (h s o e p).1 = true)
    (h : n.observe b ω ok msg = .ok (n', outs)) :
    Implements n' o (v.step o msg) := by
  obtain ⟨hk, d, hd, hattr, hval⟩ := hi
  cases hr : isRequestByte msg.esvByte with
  | false =>
    have e := (C25_silence b ω ok n n' msg outs h (Or.inl hr)).2.2.1
    refine ⟨by rw [e]; exact hk, d, by rw [e]; exact hd, hattr, ?_⟩
    simp only [Values.step, hr, Bool.false_eq_true, false_and, if_false]; exact hval
  | true =>
    rcases targets_or_silent n msg with ⟨pre, dst, post, ht⟩ | hno
    rotate_left
    · have e := (C25_silence b ω ok n n' msg outs h (Or.inr hno)).2.2.1
      refine ⟨by rw [e]; exact hk, d, by rw [e]; exact hd, hattr, ?_⟩
      have hne : msg.deoj ≠ o.code := by
        intro he
        obtain ⟨p1, p2, h1, _, h3⟩ := findObject_split hd
        exact hno d (by rw [h1]; simp) (h3.trans he.symm)
      simp only [Values.step, hne, false_and, and_false, if_false]; exact hval
    · have hkd : KeysOk dst := hk dst (by rw [ht.split]; simp)
      obtain ⟨copy, hs, hc, hacc, _⟩ := passive_write b ω ok n n' msg outs pre post dst ht hkd hr hp h
      obtain ⟨copy', app, hs', hid', _, hcase⟩ := Node.observe_target ht hkd hr h
      have haccept : ∀ cp, Accepted n msg dst cp ↔ Allowed dst msg := by
        intro cp
        obtain ⟨hh, hm, hall⟩ := ha
        exact ⟨fun h => h.1, fun h => ⟨h, Or.inr
          (someAccepts_of_mem hm (accepts_of_always (fun s o p => hall s o _ p) _))⟩⟩
      rcases Classical.em (Allowed dst msg) with hal | hal
      · obtain ⟨dst', ho', hcode', hsame⟩ := hacc ((haccept copy).mpr hal)
        have hk' : KeysOk dst' := by
          exact Node.keysOk_of_attrs (attrs_write hsame) hkd
        have hkn : ∀ x ∈ n'.objects, KeysOk x := by
          rw [ho']; rw [ht.split] at hk; exact keysOk_replace hk hk'
        by_cases hdo : msg.deoj = o.code
        · have hdd : dst = d := by
            rw [ht.split, findObject_append (c := o.code) (by rw [← hdo]; exact ht.first)
              (ht.code.trans hdo)] at hd
            exact Option.some.inj hd
          subst hdd
          have hal' : Allowed o msg := (allowed_congr hattr msg).mp hal
          refine ⟨hkn, dst', ?_, ?_, ?_⟩
          · rw [ho', findObject_append (by rw [← hdo]; exact ht.first)
              (hcode'.trans (ht.code.trans hdo))]
          · intro c
            rw [attrs_write hsame c, ← hattr c]
          · intro c hm
            rw [valuesOf_write hsame c hm]
            simp only [Values.step, hr, hdo, hal', and_self, if_true]
            unfold Values.write
            rw [hval c hm]
        · refine ⟨hkn, d, ?_, hattr, ?_⟩
          · rw [ho', findObject_replace_other hcode' (by rw [ht.code]; exact hdo), ← ht.split]; exact hd
          · simp only [Values.step, hdo, false_and, and_false, if_false]; exact hval
      · rcases hcase with ⟨_, hn, _⟩ | ⟨hacc', _⟩
        · have e : n'.objects = n.objects := by rw [hn, Node.updateTid_objects]
          refine ⟨by rw [e]; exact hk, d, by rw [e]; exact hd, hattr, ?_⟩
          have : ¬ (isRequestByte msg.esvByte = true ∧ msg.deoj = o.code ∧ Allowed o msg) := by
            rintro ⟨_, hdo, hal'⟩
            have hdd : dst = d := by
              rw [ht.split, findObject_append (c := o.code) (by rw [← hdo]; exact ht.first)
                (ht.code.trans hdo)] at hd
              exact Option.some.inj hd
            subst hdd
            exact hal ((allowed_congr hattr msg).mpr hal')
          simp only [Values.step, this, if_false]; exact hval
        · exact absurd ((haccept _).mp hacc') hal

/-- One request to the device: acceptance and reply. -/
theorem implements_reply {b : Build} {ω : HashOrder} {ok : Nat → Bool} {n n' : Node S} {msg : Message}
    {outs : List Out} {o : Object} {v : Values} (hi : Implements n o v)
    (hp : ∀ h ∈ n.handlers, Passive h) (ha : ∃ h ∈ n.handlers, ∀ s o e p, (h s o e p).1 = true)
    (h : n.observe b ω ok msg = .ok (n', outs))
    (hr : isRequestByte msg.esvByte = true) (hdo : msg.deoj = o.code) :
    (Allowed o msg → (replies outs).map (fun u => u.esvByte) = (successByte msg.esvByte).toList ∧
      ∀ u ∈ replies outs, (∀ r ∈ readsOf msg, isMapCode r.code = false) →
        (msg.esvByte = 0x62 ∨ msg.esvByte = 0x63 → u.properties = (v.step o msg).read msg.properties) ∧
        (msg.esvByte = 0x61 ∨ msg.esvByte = 0x74 → u.properties = ackOf msg.properties) ∧
        (msg.esvByte = 0x6E → u.setProperties = ackOf msg.setProperties ∧
          u.getProperties = (v.step o msg).read msg.getProperties)) ∧
    (¬ Allowed o msg → (replies outs).map (fun u => u.esvByte) = [errorByte msg.esvByte]) := by
  have hi' := implements_step hi hp ha h
  obtain ⟨hk, d, hd, hattr, hval⟩ := hi
  obtain ⟨_, d', hd', _, hval'⟩ := hi'
  obtain ⟨pre, post, h1, h2, h3⟩ := findObject_split hd
  have ht : Targets n msg pre d post := ⟨h1, by rw [hdo]; exact h2, h3.trans hdo.symm⟩
  have hkd : KeysOk d := hk d (by rw [h1]; simp)
  obtain ⟨copy, _, _, hacc, hrej⟩ := C26_accept_iff b ω ok n n' msg outs pre post d ht hkd hr h
  have hal := allowed_congr hattr msg
  obtain ⟨hh, hm, hall⟩ := ha
  constructor
  · intro ha'
    have h1 := hacc ⟨hal.mpr ha', Or.inr
      (someAccepts_of_mem hm (accepts_of_always (fun s o p => hall s o _ p) _))⟩
    refine ⟨h1, fun u hu hmap => ?_⟩
    have hne : isErrorByte u.esvByte = false := by
      have : u.esvByte ∈ (successByte msg.esvByte).toList := by
        rw [← h1]; exact List.mem_map_of_mem hu
      cases hs : successByte msg.esvByte with
      | none => simp [hs] at this
      | some svc =>
        have e : u.esvByte = svc := by simpa [hs] using this
        rw [e]
        have := success_not_error _ _ hs
        simpa using this
    obtain ⟨o', ho', _, hr1, hr2, hr3⟩ := C29_read_returns_data b ω ok n n' msg outs hk h u hu hne
    rw [hdo, hd'] at ho'
    obtain rfl := Option.some.inj ho'
    refine ⟨fun e => ?_, hr2, fun e => ⟨(hr3 e).1, ?_⟩⟩
    · rw [hr1 e]
      apply dataOf_eq_read hval'
      rcases e with e | e <;> simpa [readsOf, e] using hmap
    · rw [(hr3 e).2]
      apply dataOf_eq_read hval'
      simpa [readsOf, e] using hmap
  · intro hna
    exact hrej (fun hx => hna (hal.mp hx.1))

/-- Whole histories. -/
theorem implements_run {b : Build} {n n' : Node S} {l : List Arrival} {outs : List Out} {o : Object}
    {v : Values} (hi : Implements n o v) (hp : ∀ h ∈ n.handlers, Passive h)
    (ha : ∃ h ∈ n.handlers, ∀ s o e p, (h s o e p).1 = true) (h : n.run b (arrivals l) = .ok (n', outs)) :
    Implements n' o ((processed l).foldl (Values.step o) v) ∧ n'.handlers = n.handlers := by
  induction l generalizing n outs v with
  | nil =>
    simp only [arrivals, List.map_nil, Node.run, Res.ok.injEq, Prod.mk.injEq] at h
    rw [← h.1]; exact ⟨hi, rfl⟩
  | cons a l ih =>
    simp only [arrivals, List.map_cons, Node.run] at h
    obtain ⟨r, hr, h⟩ := Res.bind_eq_ok.mp h
    obtain ⟨r', hr', h⟩ := Res.bind_eq_ok.mp h
    simp only [Res.pure_eq, Res.ok.injEq, Prod.mk.injEq] at h
    obtain ⟨rfl, rfl⟩ := h
    simp only [Node.step, Node.observeTry] at hr
    cases hf : a.free with
    | false =>
      simp only [hf, Bool.not_false, if_true, Res.ok.injEq] at hr
      subst hr
      have := ih hi hp ha hr'
      simpa [processed, hf] using this
    | true =>
      simp only [hf, Bool.not_true, Bool.false_eq_true, if_false] at hr
      have h1 := implements_step hi hp ha hr
      have h2 := (observe_frame hr).1
      have := ih h1 (by rw [h2]; exact hp) (by rw [h2]; exact ha) hr'
      rw [h2] at this
      simpa [processed, hf] using this

/-- C35: take a node with object `o` whose handlers do not modify objects and one of which accepts
everything. After any sequence of received messages (any senders, services, destinations; some of them
lost because the node was locked; any hash orders and send outcomes), every property of the object except
the property maps holds the value of the abstract map: the initial value overwritten by the allowed writes
of the processed messages, in order. -/
theorem C35_values (b : Build) (n n' : Node S) (l : List Arrival) (outs : List Out) (o : Object)
    (hk : ∀ x ∈ n.objects, KeysOk x) (ho : findObject n.objects o.code = some o)
    (hp : ∀ h ∈ n.handlers, Passive h) (ha : ∃ h ∈ n.handlers, ∀ s x e p, (h s x e p).1 = true)
    (h : n.run b (arrivals l) = .ok (n', outs)) (c : UInt8) (hc : isMapCode c = false) :
    n'.property o.code c = (processed l).foldl (Values.step o) (valuesOf o) c := by
  obtain ⟨⟨_, d, hd, _, hval⟩, _⟩ := implements_run (v := valuesOf o) ⟨hk, o, ho, fun _ => rfl, fun _ _ => rfl⟩ hp ha h
  rw [← hval c hc]
  simp only [Node.property, hd, Object.findProperty, valuesOf]
  cases d.properties c <;> rfl

/-- C35: and a request for the object that arrives after such a history succeeds exactly when the object's
attributes allow it; the reply to a read (0x62, 0x63, 0x6E) of properties other than the property maps
contains exactly the values of the abstract map (including the writes of the same 0x6E message). -/
theorem C35_replies (b : Build) (ω : HashOrder) (ok : Nat → Bool) (n n₁ n' : Node S) (l : List Arrival)
    (outs₁ outs : List Out) (o : Object) (msg : Message)
    (hk : ∀ x ∈ n.objects, KeysOk x) (ho : findObject n.objects o.code = some o)
    (hp : ∀ h ∈ n.handlers, Passive h) (ha : ∃ h ∈ n.handlers, ∀ s x e p, (h s x e p).1 = true)
    (h₁ : n.run b (arrivals l) = .ok (n₁, outs₁)) (h : n₁.observe b ω ok msg = .ok (n', outs))
    (hr : isRequestByte msg.esvByte = true) (hd : msg.deoj = o.code) :
    (Allowed o msg →
      (replies outs).map (fun u => u.esvByte) = (successByte msg.esvByte).toList ∧
      ∀ u ∈ replies outs, (∀ r ∈ readsOf msg, isMapCode r.code = false) →
        let v := (processed l ++ [msg]).foldl (Values.step o) (valuesOf o)
        (msg.esvByte = 0x62 ∨ msg.esvByte = 0x63 → u.properties = v.read msg.properties) ∧
        (msg.esvByte = 0x61 ∨ msg.esvByte = 0x74 → u.properties = ackOf msg.properties) ∧
        (msg.esvByte = 0x6E → u.setProperties = ackOf msg.setProperties ∧
          u.getProperties = v.read msg.getProperties)) ∧
    (¬ Allowed o msg → (replies outs).map (fun u => u.esvByte) = [errorByte msg.esvByte]) := by
  obtain ⟨hi, hh⟩ := implements_run (v := valuesOf o) ⟨hk, o, ho, fun _ => rfl, fun _ _ => rfl⟩ hp ha h₁
  have := implements_reply hi (by rw [hh]; exact hp) (by rw [hh]; exact ha) h hr hd
  simpa only [List.foldl_append, List.foldl_cons, List.foldl_nil] using this

/-- Two writes, one of them lost, then a read: the read sees the first write. -/
example : ∃ n, exNode [nodeHandler, acceptAll] = .ok n ∧
    ∃ r, n.run .dev (arrivals
      [⟨(exRequest .WriteRequest 7).addProperty ⟨0xB0, [0x41]⟩, true, .ascending, allOk⟩,
       ⟨(exRequest .WriteRequest 8).addProperty ⟨0xB0, [0x42]⟩, false, .ascending, allOk⟩]) = .ok r ∧
    ∃ r', r.1.observe .dev .ascending allOk ((exRequest .ReadRequest 9).addProperty ⟨0xB0, []⟩) = .ok r' ∧
      (replies r'.2).map (fun u => u.properties) = [[⟨0xB0, [0x41]⟩]] := by
  refine ⟨_, rfl, _, rfl, _, rfl, ?_⟩; decide +kernel

/-- The hypotheses of C35 are met by a node with an accepting handler. -/
example : ∃ n o, exNode [nodeHandler, acceptAll] = .ok n ∧ n.objects = [o] ∧
    findObject n.objects o.code = some o ∧ (∀ h ∈ n.handlers, Passive h) ∧
    ∃ h ∈ n.handlers, ∀ s x e p, (h s x e p).1 = true := by
  refine ⟨_, _, rfl, rfl, ?_, ?_, acceptAll, by simp, fun _ _ _ _ => rfl⟩
  · simp [findObject]
  · intro h hm
    simp only [List.mem_cons, List.not_mem_nil, or_false] at hm
    rcases hm with rfl | rfl
    · exact nodeHandler_passive
    · exact fun _ _ _ _ => rfl

end Uecho
