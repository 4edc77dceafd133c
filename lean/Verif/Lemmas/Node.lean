import Verif.Lemmas.Import
import Verif.Lemmas.Codec
import Verif.Spec.Request
/-! Helper lemmas about request processing. -/
namespace Uecho
open Spec

/-! ## ESV bytes -/

theorem isRequest_byte (e : UInt8) : (ESV.fromU8 e).isRequest = isRequestByte e := by
  revert e; decide +kernel
theorem isResponse_byte (e : UInt8) : (ESV.fromU8 e).isResponse = isResponseByte e := by
  revert e; decide +kernel
theorem isUnicast_byte (e : UInt8) :
    (ESV.fromU8 e).isUnicastResponse = (isResponseByte e && !isNotificationByte e) := by
  revert e; decide +kernel
theorem fromU8_60 (b : UInt8) : ESV.fromU8 b = .WriteRequest ↔ b = 0x60 := by
  revert b; decide +kernel
theorem fromU8_61 (b : UInt8) : ESV.fromU8 b = .WriteRequestResponseRequired ↔ b = 0x61 := by
  revert b; decide +kernel
theorem fromU8_62 (b : UInt8) : ESV.fromU8 b = .ReadRequest ↔ b = 0x62 := by
  revert b; decide +kernel
theorem fromU8_63 (b : UInt8) : ESV.fromU8 b = .NotificationRequest ↔ b = 0x63 := by
  revert b; decide +kernel
theorem fromU8_74 (b : UInt8) : ESV.fromU8 b = .NotificationResponseRequired ↔ b = 0x74 := by
  revert b; decide +kernel
theorem isRequest_not_response (e : UInt8) (h : isRequestByte e = true) : isResponseByte e = false := by
  revert e; decide +kernel
theorem isRequestByte_iff (e : UInt8) : isRequestByte e = true ↔
    e = 0x60 ∨ e = 0x61 ∨ e = 0x62 ∨ e = 0x63 ∨ e = 0x6E ∨ e = 0x74 := by
  revert e; decide +kernel
theorem errorEsv_byte (e : UInt8) (h : isRequestByte e = true) :
    (errorEsv (ESV.fromU8 e)).toU8 = errorByte e := by
  revert e; decide +kernel
theorem responseEsv_byte (e : UInt8) : ∀ s, successByte e = some s → (responseEsv (ESV.fromU8 e)).toU8 = s := by
  revert e; decide +kernel
theorem toU8_fromU8 (e : ESV) : ESV.fromU8 e.toU8 = e := by cases e <;> decide +kernel

/-! ## Folding `add_property` -/

theorem foldl_addProperty (ps : List WProperty) (m : Message) :
    ps.foldl Message.addProperty m = { m with properties := m.properties ++ ps } := by
  induction ps generalizing m with
  | nil => simp
  | cons p ps ih => simp [ih, Message.addProperty]

theorem ackLoop_addProperty (ps : List WProperty) (m : Message) :
    ackLoop Message.addProperty m ps =
      { m with properties := m.properties ++ ps.map (fun p => ⟨p.code, []⟩) } := by
  unfold ackLoop
  induction ps generalizing m with
  | nil => simp
  | cons p ps ih =>
    simp only [List.foldl_cons]; rw [ih]; simp [Message.addProperty, WProperty.new]

theorem ackLoop_addPropertySet (ps : List WProperty) (m : Message) :
    ackLoop Message.addPropertySet m ps =
      { m with setProperties := m.setProperties ++ ps.map (fun p => ⟨p.code, []⟩) } := by
  unfold ackLoop
  induction ps generalizing m with
  | nil => simp
  | cons p ps ih =>
    simp only [List.foldl_cons]; rw [ih]; simp [Message.addPropertySet, WProperty.new]

/-- What `readLoop` collects. -/
def readData (o : Object) : List WProperty → Option (List WProperty)
  | [] => some []
  | r :: rs =>
    match o.properties r.code with
    | none => none
    | some p => (readData o rs).map (fun l => ⟨p.code, p.data⟩ :: l)

theorem readLoop_addProperty (o : Object) (ps : List WProperty) (m : Message) :
    o.readLoop Message.addProperty m ps =
      (readData o ps).map (fun l => { m with properties := m.properties ++ l }) := by
  induction ps generalizing m with
  | nil => simp [Object.readLoop, readData]
  | cons p ps ih =>
    simp only [Object.readLoop, readData, Object.findProperty]
    cases o.properties p.code with
    | none => rfl
    | some q =>
      simp only [ih, Option.map_map]
      cases readData o ps <;> simp [Message.addProperty]

theorem readLoop_addPropertyGet (o : Object) (ps : List WProperty) (m : Message) :
    o.readLoop Message.addPropertyGet m ps =
      (readData o ps).map (fun l => { m with getProperties := m.getProperties ++ l }) := by
  induction ps generalizing m with
  | nil => simp [Object.readLoop, readData]
  | cons p ps ih =>
    simp only [Object.readLoop, readData, Object.findProperty]
    cases o.properties p.code with
    | none => rfl
    | some q =>
      simp only [ih, Option.map_map]
      cases readData o ps <;> simp [Message.addPropertyGet]

theorem readData_some {o : Object} {ps : List WProperty}
    (h : ∀ r ∈ ps, ∃ p, o.properties r.code = some p) :
    ∃ l, readData o ps = some l ∧ l.length = ps.length ∧
      ∀ i (hi : i < ps.length) (hi' : i < l.length), ∃ p, o.properties ps[i].code = some p ∧
        l[i] = ⟨p.code, p.data⟩ := by
  induction ps with
  | nil => exact ⟨[], rfl, rfl, fun i hi => absurd hi (by simp)⟩
  | cons r rs ih =>
    obtain ⟨l, h1, h2, h3⟩ := ih (fun r hr => h r (by simp [hr]))
    obtain ⟨p, hp⟩ := h r (by simp)
    refine ⟨⟨p.code, p.data⟩ :: l, by simp [readData, hp, h1], by simp [h2], ?_⟩
    intro i hi hi'
    cases i with
    | zero => exact ⟨p, hp, rfl⟩
    | succ i =>
      obtain ⟨q, hq, hl⟩ := h3 i (by simpa using hi) (by simpa using hi')
      exact ⟨q, by simpa using hq, by simpa using hl⟩

/-! ## Finding and updating objects -/

theorem findObject_split {objs : List Object} {c : UInt32} {o : Object} (h : findObject objs c = some o) :
    ∃ pre post, objs = pre ++ o :: post ∧ (∀ x ∈ pre, x.code ≠ c) ∧ o.code = c := by
  unfold findObject at h
  rw [List.find?_eq_some_iff_append] at h
  obtain ⟨h1, pre, post, h2, h3⟩ := h
  exact ⟨pre, post, h2, fun x hx => by simpa using h3 x hx, by simpa using h1⟩

theorem findObject_append {pre post : List Object} {o : Object} {c : UInt32}
    (h : ∀ x ∈ pre, x.code ≠ c) (ho : o.code = c) : findObject (pre ++ o :: post) c = some o := by
  unfold findObject
  rw [List.find?_eq_some_iff_append]
  exact ⟨by simpa using ho, pre, post, rfl, fun x hx => by simpa using h x hx⟩

theorem updateObject_append {pre post : List Object} {o : Object} {c : UInt32} (f : Object → Object)
    (h : ∀ x ∈ pre, x.code ≠ c) (ho : o.code = c) :
    updateObject c f (pre ++ o :: post) = pre ++ f o :: post := by
  induction pre with
  | nil => simp [updateObject, ho]
  | cons x xs ih =>
    have hx : (x.code == c) = false := by simpa using h x (by simp)
    simp only [List.cons_append, updateObject, hx]
    simpa using ih (fun y hy => h y (by simp [hy]))

theorem findObject_none_iff {objs : List Object} {c : UInt32} :
    findObject objs c = none ↔ ∀ o ∈ objs, o.code ≠ c := by
  simp [findObject]

/-! ## Writing lists of data -/

theorem lastWrite_append (ws : List WProperty) (w : WProperty) (c : UInt8) :
    lastWrite (ws ++ [w]) c = if w.code = c then some w.data else lastWrite ws c := by
  simp [lastWrite]

theorem lastWrite_foldl (ws : List WProperty) (c : UInt8) (acc : Option (List UInt8)) :
    ws.foldl (fun acc w => if w.code = c then some w.data else acc) acc =
      match lastWrite ws c with
      | some d => some d
      | none => acc := by
  unfold lastWrite
  induction ws generalizing acc with
  | nil => rfl
  | cons w ws ih =>
    simp only [List.foldl_cons]
    rw [ih, ih (acc := if w.code = c then some w.data else none)]
    generalize ws.foldl _ none = x
    cases x with
    | some d => rfl
    | none => by_cases h : w.code = c <;> simp [h]

theorem lastWrite_cons (w : WProperty) (ws : List WProperty) (c : UInt8) :
    lastWrite (w :: ws) c = match lastWrite ws c with
      | some d => some d
      | none => if w.code = c then some w.data else none := by
  conv => lhs; unfold lastWrite
  rw [List.foldl_cons, lastWrite_foldl]

theorem lastWrite_mem {ws : List WProperty} {c : UInt8} {d : List UInt8} (h : lastWrite ws c = some d) :
    (⟨c, d⟩ : WProperty) ∈ ws := by
  induction ws with
  | nil => simp [lastWrite] at h
  | cons w ws ih =>
    rw [lastWrite_cons] at h
    split at h
    · rename_i d' hd
      exact List.mem_cons_of_mem _ (ih (by rw [hd, h]))
    · split at h
      · rename_i hc
        simp only [Option.some.injEq] at h
        subst hc h
        exact List.mem_cons_self
      · simp at h

theorem lastWrite_none {ws : List WProperty} {c : UInt8} :
    lastWrite ws c = none ↔ ∀ w ∈ ws, w.code ≠ c := by
  induction ws with
  | nil => simp [lastWrite]
  | cons w ws ih =>
    rw [lastWrite_cons]
    cases hl : lastWrite ws c with
    | some d =>
      simp only [reduceCtorEq, List.mem_cons, forall_eq_or_imp, false_iff, not_and]
      intro _ h
      exact absurd (ih.mpr h) (by simp [hl])
    | none =>
      by_cases h : w.code = c
      · simp [h]
      · simpa [h] using ih.mp hl

namespace Node

theorem writeLoop_props (ws : List WProperty) (o : Object) (c : UInt8) :
    (writeLoop o ws).properties c = (o.properties c).map (fun p =>
      match lastWrite ws c with
      | some d => p.setData d
      | none => p) := by
  induction ws generalizing o with
  | nil => simp [writeLoop, lastWrite]
  | cons w ws ih =>
    have : writeLoop o (w :: ws) = writeLoop (o.setPropertyData w.code w.data).2 ws := rfl
    rw [this, ih, lastWrite_cons, Object.setPropertyData_props]
    by_cases hc : c = w.code
    · subst hc
      rw [if_pos rfl, Option.map_map]
      cases o.properties w.code with
      | none => rfl
      | some p => cases lastWrite ws w.code <;> simp [Property.setData]
    · rw [if_neg hc]
      cases o.properties c with
      | none => rfl
      | some p =>
        have : ¬ w.code = c := fun h => hc h.symm
        cases lastWrite ws c <;> simp [this]

theorem writeLoop_sameId (ws : List WProperty) (o : Object) : Object.SameId o (writeLoop o ws) := by
  induction ws generalizing o with
  | nil => exact Object.SameId.refl o
  | cons w ws ih => exact (Object.setPropertyData_sameId o _ _).trans (ih _)

theorem copyBack_eq (o : Object) (ps : List Property) : copyBack o ps = writeLoop o (ps.map Property.toWire) := by
  unfold copyBack writeLoop
  rw [List.foldl_map]; rfl

theorem code_of_sameId {o o' : Object} (h : Object.SameId o o') : o'.code = o.code := by
  unfold Object.code; rw [h.1]

/-- The last value copied back for `c`. -/
theorem lastWrite_values {cp : Object} (hk : KeysOk cp) {order : List UInt8} (ho : IsOrder order) (c : UInt8) :
    lastWrite ((cp.values order).map Property.toWire) c = (cp.properties c).map (fun p => p.data) := by
  unfold Object.values
  have hn := ho.nodup
  have hm := ho.mem c
  clear ho
  induction order with
  | nil => simp at hm
  | cons k ks ih =>
    rw [List.nodup_cons] at hn
    have hkc : ∀ k ∈ ks, k ≠ c → True := fun _ _ _ => trivial
    have hks : c ∉ ks → lastWrite ((ks.filterMap cp.properties).map Property.toWire) c = none := by
      intro hc
      rw [lastWrite_none]
      intro w hw
      obtain ⟨p, hp, rfl⟩ := List.mem_map.mp hw
      obtain ⟨k', hk', hp'⟩ := List.mem_filterMap.mp hp
      have := hk k' p hp'
      intro h
      have h' : p.code = c := h
      exact hc (by rw [← h', this]; exact hk')
    by_cases h : k = c
    · subst h
      have h0 := hks hn.1
      cases hp : cp.properties k with
      | none => simp only [List.filterMap_cons, hp]; exact h0
      | some p =>
        simp only [List.filterMap_cons, hp, List.map_cons]
        rw [lastWrite_cons, h0]
        have := hk k p hp
        simp [Property.toWire, this]
    · have hm' : c ∈ ks := by
        rcases List.mem_cons.mp hm with h' | h'
        · exact absurd h'.symm h
        · exact h'
      have := ih hn.2 hm'
      cases hp : cp.properties k with
      | none => simp only [List.filterMap_cons, hp]; exact this
      | some p =>
        simp only [List.filterMap_cons, hp, List.map_cons]
        rw [lastWrite_cons, this]
        have hpk := hk k p hp
        cases cp.properties c with
        | some q => rfl
        | none => simp [Property.toWire, hpk, h]

/-- What is left in the object after copying the handlers' copy back, for a copy filed correctly. -/
theorem copyBack_props {o cp : Object} (hk : KeysOk cp) {order : List UInt8} (ho : IsOrder order) (c : UInt8) :
    (copyBack o (cp.values order)).properties c = (o.properties c).map (fun p =>
      match cp.properties c with
      | some q => p.setData q.data
      | none => p) := by
  rw [copyBack_eq, writeLoop_props, lastWrite_values hk ho]
  cases o.properties c with
  | none => rfl
  | some p => cases cp.properties c <;> rfl

/-- The three property lists written by a request. -/
theorem writeRequestData_eq (o : Object) (req : Message) :
    writeRequestData o req = writeLoop o (writesOf req) := by
  unfold writeRequestData writesOf Message.esv
  cases he : ESV.fromU8 req.esvByte
  case WriteRequest => simp [(fromU8_60 _).mp he]
  case WriteRequestResponseRequired => simp [(fromU8_61 _).mp he]
  case WriteReadRequest => simp [(fromU8_6E _).mp he]
  all_goals
    have h0 : req.esvByte ≠ 0x60 := fun h => by rw [(fromU8_60 _).mpr h] at he; cases he
    have h1 : req.esvByte ≠ 0x61 := fun h => by rw [(fromU8_61 _).mpr h] at he; cases he
    have h2 : req.esvByte ≠ 0x6E := fun h => by rw [(fromU8_6E _).mpr h] at he; cases he
    simp [h0, h1, h2, writeLoop]

/-! ## Validity -/

theorem isWritable_iff (p : Property) : p.isWritable = true ↔ p.writeAttr ≠ .Prohibited := by
  unfold Property.isWritable; cases p.writeAttr <;> simp
theorem isReadable_iff (p : Property) : p.isReadable = true ↔ p.readAttr ≠ .Prohibited := by
  unfold Property.isReadable; cases p.readAttr <;> simp

theorem validProperty_write (dst : Object) (rp : WProperty) (esv : ESV)
    (h : esv = .WriteRequest ∨ esv = .WriteRequestResponseRequired) :
    validProperty dst esv rp = true ↔ ∃ p, dst.properties rp.code = some p ∧ p.writeAttr ≠ .Prohibited ∧
      (p.capacity = 0 ∨ rp.data.length ≤ p.capacity) := by
  unfold validProperty Object.findProperty
  cases hp : dst.properties rp.code with
  | none => simp
  | some p =>
    rcases h with rfl | rfl <;>
    · simp only [Option.some.injEq, exists_eq_left', ← isWritable_iff]
      cases p.isWritable
      · simp
      · simp only [Bool.not_true, Bool.false_eq_true, if_false, true_and]
        have hsz : rp.size = rp.data.length := rfl
        by_cases hz : 0 < p.capacity ∧ p.capacity < rp.size
        · rw [if_pos hz]; simp only [Bool.false_eq_true, false_iff]; omega
        · rw [if_neg hz]; simp only [true_iff]; omega

theorem validProperty_read (dst : Object) (rp : WProperty) (esv : ESV)
    (h : esv = .ReadRequest ∨ esv = .NotificationRequest ∨ esv = .NotificationResponseRequired) :
    validProperty dst esv rp = true ↔ ∃ p, dst.properties rp.code = some p ∧ p.readAttr ≠ .Prohibited := by
  unfold validProperty Object.findProperty
  cases hp : dst.properties rp.code with
  | none => simp
  | some p =>
    rcases h with rfl | rfl | rfl <;>
    · simp only [Option.some.injEq, exists_eq_left', ← isReadable_iff]
      cases p.isReadable <;> simp

theorem validRequest_iff (dst : Object) (req : Message) (h : isRequestByte req.esvByte = true) :
    validRequest dst req = true ↔ Allowed dst req := by
  unfold validRequest Allowed validList writesOf readsOf Message.esv
  rcases (isRequestByte_iff _).mp h with h | h | h | h | h | h
  · rw [(fromU8_60 _).mpr h]
    simp [h, List.all_eq_true, validProperty_write]
  · rw [(fromU8_61 _).mpr h]
    simp [h, List.all_eq_true, validProperty_write]
  · rw [(fromU8_62 _).mpr h]
    simp [h, List.all_eq_true, validProperty_read]
  · rw [(fromU8_63 _).mpr h]
    simp [h, List.all_eq_true, validProperty_read]
  · rw [(fromU8_6E _).mpr h]
    simp only [h]
    cases h1 : req.setProperties.all (validProperty dst .WriteRequest)
    · have : ¬ ∀ w ∈ req.setProperties, ∃ p, dst.properties w.code = some p ∧ p.writeAttr ≠ .Prohibited ∧
          (p.capacity = 0 ∨ w.data.length ≤ p.capacity) := by
        intro hc
        have : req.setProperties.all (validProperty dst .WriteRequest) = true :=
          List.all_eq_true.mpr (fun w hw => (validProperty_write _ _ _ (Or.inl rfl)).mpr (hc w hw))
        simp [h1] at this
      simp [this]
    · have : ∀ w ∈ req.setProperties, ∃ p, dst.properties w.code = some p ∧ p.writeAttr ≠ .Prohibited ∧
          (p.capacity = 0 ∨ w.data.length ≤ p.capacity) := fun w hw =>
        (validProperty_write _ _ _ (Or.inl rfl)).mp (List.all_eq_true.mp h1 w hw)
      cases h2 : req.getProperties.all (validProperty dst .ReadRequest)
      · have h3 : ¬ ∀ r ∈ req.getProperties, ∃ p, dst.properties r.code = some p ∧ p.readAttr ≠ .Prohibited := by
          intro hc
          have : req.getProperties.all (validProperty dst .ReadRequest) = true :=
            List.all_eq_true.mpr (fun w hw => (validProperty_read _ _ _ (Or.inl rfl)).mpr (hc w hw))
          simp [h2] at this
        simp [h3]
      · have h3 : ∀ r ∈ req.getProperties, ∃ p, dst.properties r.code = some p ∧ p.readAttr ≠ .Prohibited :=
          fun w hw => (validProperty_read _ _ _ (Or.inl rfl)).mp (List.all_eq_true.mp h2 w hw)
        simp only [Bool.not_true, Bool.false_eq_true, if_false, true_iff]
        exact ⟨by simpa using this, by simpa using h3⟩
  · rw [(fromU8_74 _).mpr h]
    simp [h, List.all_eq_true, validProperty_read]

end Node

/-! ## Handlers -/

theorem runHandler_eq {S : Type} (h : Handler S) (esv : ESV) (ps : List WProperty) (o : Object) (s : S) :
    (runHandler h esv ps o s).2 = afterHandler h esv ps (o, s) ∧
    ((runHandler h esv ps o s).1 = true ↔ Accepts h esv ps o s) := by
  unfold runHandler
  have key : ∀ (acc : Bool × Object × S),
      (ps.foldl (fun acc p =>
        let r := h acc.2.2 acc.2.1 esv p
        (if !r.1 then false else acc.1, r.2.1, r.2.2)) acc).2 = afterHandler h esv ps acc.2 ∧
      ((ps.foldl (fun acc p =>
        let r := h acc.2.2 acc.2.1 esv p
        (if !r.1 then false else acc.1, r.2.1, r.2.2)) acc).1 = true ↔
          acc.1 = true ∧ Accepts h esv ps acc.2.1 acc.2.2) := by
    induction ps with
    | nil => intro acc; simp [afterHandler, Accepts]
    | cons p ps ih =>
      intro acc
      simp only [List.foldl_cons]
      obtain ⟨h1, h2⟩ := ih (if !(h acc.2.2 acc.2.1 esv p).1 then false else acc.1,
        (h acc.2.2 acc.2.1 esv p).2.1, (h acc.2.2 acc.2.1 esv p).2.2)
      refine ⟨h1, h2.trans ?_⟩
      simp only [Accepts]
      cases (h acc.2.2 acc.2.1 esv p).1 <;> simp
  have := key (true, o, s)
  exact ⟨this.1, by simpa using this.2⟩

theorem requestReceived_eq {S : Type} (hs : List (Handler S)) (msg : Message) (o : Object) (s : S) :
    (requestReceived hs msg o s).2 = afterHandlers msg.esv msg.properties hs (o, s) ∧
    ((requestReceived hs msg o s).1 = true ↔
      hs = [] ∨ SomeAccepts msg.esv msg.properties hs (o, s)) := by
  unfold requestReceived
  by_cases hl : hs.length = 0
  · have : hs = [] := List.eq_nil_of_length_eq_zero hl
    subst this
    simp [afterHandlers]
  · rw [if_neg hl]
    have hne : hs ≠ [] := fun h => hl (by simp [h])
    have key : ∀ (hs : List (Handler S)) (acc : Bool × Object × S),
        (hs.foldl (fun acc h =>
          let r := runHandler h msg.esv msg.properties acc.2.1 acc.2.2
          (if r.1 then true else acc.1, r.2.1, r.2.2)) acc).2
            = afterHandlers msg.esv msg.properties hs acc.2 ∧
        ((hs.foldl (fun acc h =>
          let r := runHandler h msg.esv msg.properties acc.2.1 acc.2.2
          (if r.1 then true else acc.1, r.2.1, r.2.2)) acc).1 = true ↔
            acc.1 = true ∨ SomeAccepts msg.esv msg.properties hs acc.2) := by
      intro hs
      induction hs with
      | nil => intro acc; simp [afterHandlers, SomeAccepts]
      | cons h hs ih =>
        intro acc
        simp only [List.foldl_cons]
        obtain ⟨r1, r2⟩ := runHandler_eq h msg.esv msg.properties acc.2.1 acc.2.2
        generalize runHandler h msg.esv msg.properties acc.2.1 acc.2.2 = r at r1 r2 ⊢
        obtain ⟨h1, h2⟩ := ih (if r.1 then true else acc.1, r.2.1, r.2.2)
        have r1' : (r.2.1, r.2.2) = afterHandler h msg.esv msg.properties acc.2 := r1
        refine ⟨h1.trans ?_, h2.trans ?_⟩
        · simp only [afterHandlers]; rw [← r1']
        · simp only [SomeAccepts]
          rw [← r1', ← r2]
          cases r.1 <;> simp
    have := key hs (false, o, s)
    refine ⟨this.1, this.2.trans ?_⟩
    simp [hne]

theorem afterHandler_passive {S : Type} {h : Handler S} (hp : Passive h) (esv : ESV) (ps : List WProperty)
    (x : Object × S) : (afterHandler h esv ps x).1 = x.1 := by
  induction ps generalizing x with
  | nil => rfl
  | cons p ps ih => simp only [afterHandler]; rw [ih]; exact hp _ _ _ _

theorem afterHandlers_passive {S : Type} {hs : List (Handler S)} (hp : ∀ h ∈ hs, Passive h) (esv : ESV)
    (ps : List WProperty) (x : Object × S) : (afterHandlers esv ps hs x).1 = x.1 := by
  induction hs generalizing x with
  | nil => rfl
  | cons h hs ih =>
    simp only [afterHandlers]
    rw [ih (fun h' hh => hp h' (by simp [hh]))]
    exact afterHandler_passive (hp h (by simp)) _ _ _

theorem nodeHandler_passive {S : Type} : Passive (nodeHandler (S := S)) := by
  intro s o esv p
  unfold nodeHandler
  split
  · rfl
  · cases esv <;> simp only [] <;> first | rfl | (split <;> rfl)

/-! ## `message_received` -/

namespace Node
variable {S : Type}

/-- All outcomes of processing one message. -/
inductive Outcome (b : Build) (ω : HashOrder) (n : Node S) (req : Message) : Option Message → Node S → Prop
  /-- not a request, or no such object -/
  | silent (h : isRequestByte req.esvByte = false ∨ ∀ o ∈ n.objects, o.code ≠ req.deoj) :
      Outcome b ω n req none n
  /-- the request does not fit the object -/
  | invalid (pre : List Object) (dst : Object) (post : List Object) (hr : isRequestByte req.esvByte = true)
      (ho : n.objects = pre ++ dst :: post) (hpre : ∀ o ∈ pre, o.code ≠ req.deoj) (hd : dst.code = req.deoj)
      (hv : ¬ Allowed dst req) : Outcome b ω n req (some (responseErrorMessage req)) n
  /-- refused by the handlers -/
  | refused (pre : List Object) (dst : Object) (post : List Object) (copy : Object)
      (hr : isRequestByte req.esvByte = true)
      (ho : n.objects = pre ++ dst :: post) (hpre : ∀ o ∈ pre, o.code ≠ req.deoj) (hd : dst.code = req.deoj)
      (hv : Allowed dst req) (hc : dst.clone b (ω.sub 0) = .ok copy)
      (hh : ¬ (n.handlers = [] ∨ SomeAccepts req.esv req.properties n.handlers (copy, n.app))) :
      Outcome b ω n req (some (responseErrorMessage req))
        { n with app := (afterHandlers req.esv req.properties n.handlers (copy, n.app)).2 }
  /-- accepted -/
  | accepted (pre : List Object) (dst : Object) (post : List Object) (copy dst' : Object)
      (hr : isRequestByte req.esvByte = true)
      (ho : n.objects = pre ++ dst :: post) (hpre : ∀ o ∈ pre, o.code ≠ req.deoj) (hd : dst.code = req.deoj)
      (hv : Allowed dst req) (hc : dst.clone b (ω.sub 0) = .ok copy)
      (hh : n.handlers = [] ∨ SomeAccepts req.esv req.properties n.handlers (copy, n.app))
      (hw : dst' = writeLoop (copyBack dst
        ((afterHandlers req.esv req.properties n.handlers (copy, n.app)).1.values (ω.sub 1).here))
        (writesOf req)) :
      Outcome b ω n req (dst'.messageReceived req)
        { n with app := (afterHandlers req.esv req.properties n.handlers (copy, n.app)).2
                 objects := pre ++ dst' :: post }

theorem copyBack_sameId (o : Object) (ps : List Property) : Object.SameId o (copyBack o ps) := by
  rw [copyBack_eq]; exact writeLoop_sameId _ _

theorem messageReceived_outcome {b : Build} {ω : HashOrder} {n : Node S} {req : Message}
    {res : Option Message} {n' : Node S} (h : n.messageReceived b ω req = .ok (res, n')) :
    Outcome b ω n req res n' := by
  unfold messageReceived at h
  by_cases hresp : req.esv.isResponse = true
  · rw [if_pos hresp] at h
    simp only [Res.ok.injEq, Prod.mk.injEq] at h
    obtain ⟨rfl, rfl⟩ := h
    refine .silent (Or.inl ?_)
    cases hb : isRequestByte req.esvByte with
    | false => rfl
    | true =>
      have := isRequest_not_response _ hb
      rw [Message.esv, isResponse_byte] at hresp
      simp [this] at hresp
  rw [if_neg hresp] at h
  cases hf : findObject n.objects req.deoj with
  | none =>
    rw [hf] at h
    simp only [Res.ok.injEq, Prod.mk.injEq] at h
    obtain ⟨rfl, rfl⟩ := h
    exact .silent (Or.inr (findObject_none_iff.mp hf))
  | some dst =>
    rw [hf] at h
    simp only [] at h
    cases hreq : req.esv.isRequest with
    | false =>
      simp only [hreq, Bool.not_false, if_true, Res.ok.injEq, Prod.mk.injEq] at h
      obtain ⟨rfl, rfl⟩ := h
      exact .silent (Or.inl (by rw [← isRequest_byte]; exact hreq))
    | true =>
      have hr : isRequestByte req.esvByte = true := by rw [← isRequest_byte]; exact hreq
      simp only [hreq, Bool.not_true, Bool.false_eq_true, if_false] at h
      obtain ⟨pre, post, ho, hpre, hd⟩ := findObject_split hf
      cases hv : validRequest dst req with
      | false =>
        simp only [hv, Bool.not_false, if_true, Res.ok.injEq, Prod.mk.injEq] at h
        obtain ⟨rfl, rfl⟩ := h
        refine .invalid pre dst post hr ho hpre hd ?_
        rw [← validRequest_iff dst req hr]; simp [hv]
      | true =>
        simp only [hv, Bool.not_true, Bool.false_eq_true, if_false] at h
        have hv' := (validRequest_iff dst req hr).mp hv
        obtain ⟨copy, hc, h⟩ := Res.bind_eq_ok.mp h
        obtain ⟨e1, e2⟩ := requestReceived_eq n.handlers req copy n.app
        generalize requestReceived n.handlers req copy n.app = r at e1 e2 h
        cases hr1 : r.1 with
        | false =>
          simp only [hr1, Bool.not_false, if_true, Res.pure_eq, Res.ok.injEq, Prod.mk.injEq] at h
          obtain ⟨rfl, rfl⟩ := h
          rw [e1]
          exact .refused pre dst post copy hr ho hpre hd hv' hc (by rw [← e2]; simp [hr1])
        | true =>
          simp only [hr1, Bool.not_true, Bool.false_eq_true, if_false] at h
          rw [ho, updateObject_append _ hpre hd, updateObject_append _ hpre
            (by rw [code_of_sameId (copyBack_sameId _ _)]; exact hd),
            findObject_append hpre (by
              rw [writeRequestData_eq, code_of_sameId (writeLoop_sameId _ _),
                code_of_sameId (copyBack_sameId _ _)]; exact hd)] at h
          simp only [Res.pure_eq, Res.ok.injEq, Prod.mk.injEq] at h
          obtain ⟨rfl, rfl⟩ := h
          rw [writeRequestData_eq, e1]
          exact .accepted pre dst post copy _ hr ho hpre hd hv' hc (e2.mp hr1) rfl

theorem messageReceived_no_panic {b : Build} {ω : HashOrder} {n : Node S} {req : Message}
    (h : ∀ o ∈ n.objects, o.code = req.deoj → Object.MapsOk b o) : ∃ r, n.messageReceived b ω req = .ok r := by
  unfold messageReceived
  split
  · exact ⟨_, rfl⟩
  cases hf : findObject n.objects req.deoj with
  | none => exact ⟨_, rfl⟩
  | some dst =>
    simp only []
    split
    · exact ⟨_, rfl⟩
    split
    · exact ⟨_, rfl⟩
    have hm : dst ∈ n.objects := List.mem_of_find?_eq_some hf
    have hd : dst.code = req.deoj := by simpa using List.find?_some hf
    obtain ⟨copy, hc⟩ := Object.clone_no_panic (ω := ω.sub 0) (h dst hm hd)
    rw [hc]
    simp only [Res.bind_ok]
    split
    · exact ⟨_, rfl⟩
    split <;> exact ⟨_, rfl⟩

end Node

/-! ## Responses -/

theorem responseErrorMessage_eq (req : Message) (h : isRequestByte req.esvByte = true) :
    responseErrorMessage req =
      { (((Message.new.setEsv (errorEsv req.esv)).setTid req.tid).setSeoj req.deoj).setDeoj req.seoj with
        properties := if req.esvByte = 0x6E then req.setProperties ++ req.setProperties
                      else req.properties } := by
  unfold responseErrorMessage
  have he : ((((Message.new.setEsv (errorEsv req.esv)).setTid req.tid).setSeoj req.deoj).setDeoj
      req.seoj).esv = errorEsv req.esv := toU8_fromU8 _
  simp only [he]
  by_cases h6 : req.esvByte = 0x6E
  · have : req.esv = .WriteReadRequest := (fromU8_6E _).mpr h6
    simp only [this, errorEsv, foldl_addProperty, h6, if_true, Message.setTid, Message.setSeoj, Message.setDeoj,
      Message.setEsv, Message.new, List.nil_append]
  · have : errorEsv req.esv ≠ .WriteReadRequestError := by
      have hne : req.esv ≠ .WriteReadRequest := fun hh => h6 ((fromU8_6E _).mp hh)
      revert hne
      cases req.esv <;> simp [errorEsv]
    rw [if_neg h6]
    split
    · rename_i heq; exact absurd heq this
    · simp only [foldl_addProperty, Message.setTid, Message.setSeoj, Message.setDeoj,
        Message.setEsv, Message.new, List.nil_append]

end Uecho
