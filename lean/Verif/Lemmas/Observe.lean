import Verif.Lemmas.Node
import Verif.Props.Codec
/-! Helper lemmas about a node observing a message: the reply and its transmission. -/
namespace Uecho
open Spec

/-! ## Effects -/

theorem txs_map_tx (l : List Tx) : txs (l.map Out.tx) = l := by
  induction l with
  | nil => rfl
  | cons t l ih => simp only [txs, List.map_cons, List.filterMap_cons] at ih ⊢; rw [ih]
theorem handed_map_tx (l : List Tx) : handed (l.map Out.tx) = [] := by
  induction l with
  | nil => rfl
  | cons t l ih => simp only [handed, List.map_cons, List.filterMap_cons] at ih ⊢; rw [ih]
theorem deliveries_map_tx (l : List Tx) : deliveries (l.map Out.tx) = [] := by
  induction l with
  | nil => rfl
  | cons t l ih => simp only [deliveries, List.map_cons, List.filterMap_cons] at ih ⊢; rw [ih]
theorem txs_append (a b : List Out) : txs (a ++ b) = txs a ++ txs b := by simp [txs]
theorem handed_append (a b : List Out) : handed (a ++ b) = handed a ++ handed b := by simp [handed]
theorem deliveries_append (a b : List Out) : deliveries (a ++ b) = deliveries a ++ deliveries b := by
  simp [deliveries]
theorem txs_handed_cons (g u : Message) (l : List Tx) : txs (Out.handed g u :: l.map Out.tx) = l := by
  have := txs_map_tx l
  simpa [txs] using this
theorem handed_handed_cons (g u : Message) (l : List Tx) :
    handed (Out.handed g u :: l.map Out.tx) = [(g, u)] := by
  have := handed_map_tx l
  simpa [handed] using this
theorem deliveries_handed_cons (g u : Message) (l : List Tx) :
    deliveries (Out.handed g u :: l.map Out.tx) = [] := by
  have := deliveries_map_tx l
  simpa [deliveries] using this

/-! ## Transmission -/

namespace Manager

theorem send_cases (ok : Nat → Bool) (m : Manager) (to : SocketAddr) (msg : Message) :
    ((m.send ok to msg).1 = false ∧ (m.send ok to msg).2 = []) ∨
    ((m.send ok to msg).1 = true ∧ ∃ s ∈ m.ucast, (m.send ok to msg).2 = [⟨s.ifaddr, to, msg.bytes⟩]) := by
  unfold send
  generalize m.ucast = ss
  generalize 0 = i
  induction ss generalizing i with
  | nil => exact Or.inl ⟨rfl, rfl⟩
  | cons s ss ih =>
    unfold sendLoop
    by_cases h : ok i = true
    · rw [if_pos h]; exact Or.inr ⟨rfl, s, by simp, rfl⟩
    · rw [if_neg h]
      rcases ih (i + 1) with h' | ⟨h1, s', hs, h2⟩
      · exact Or.inl h'
      · exact Or.inr ⟨h1, s', by simp [hs], h2⟩

theorem notify_cases (ok : Nat → Bool) (m : Manager) (msg : Message) :
    ∃ k, (m.notify ok msg).2 = (m.mcast.take k).map (fun s => (⟨s.ifaddr, multicastAddr, msg.bytes⟩ : Tx)) ∧
      ((m.notify ok msg).1 = true ↔ m.mcast.length ≤ k) := by
  unfold notify
  generalize m.mcast = ss
  generalize 0 = i
  induction ss generalizing i with
  | nil => exact ⟨0, rfl, by simp [notifyLoop]⟩
  | cons s ss ih =>
    unfold notifyLoop
    cases h : ok i with
    | false => exact ⟨0, by simp, by simp⟩
    | true =>
      obtain ⟨k, h1, h2⟩ := ih (i + 1)
      refine ⟨k + 1, ?_, ?_⟩
      · simp [h1]
      · simpa using h2

end Manager

namespace Node
variable {S : Type}

theorem nextTid_eq (n : Node S) : n.nextTid = (n.lastTid + 1, { n with lastTid := n.lastTid + 1 }) := by
  unfold nextTid
  by_cases h : 65535 ≤ n.lastTid
  · have : n.lastTid = 65535 := UInt16.le_antisymm (UInt16.le_iff_toNat_le.mpr (by
      have := n.lastTid.toNat_lt; simp; omega)) h
    rw [if_pos h, this]; rfl
  · rw [if_neg h]

theorem updateTid_eq (n : Node S) (m : Message) :
    n.updateTid m = if m.tid = 0 then (m.setTid (n.lastTid + 1), { n with lastTid := n.lastTid + 1 })
      else (m, n) := by
  unfold updateTid Message.hasTid
  by_cases h : m.tid = 0
  · simp [h, nextTid_eq]
  · simp [h]

end Node

/-! ## The reply to a request -/

/-- Header of a reply. -/
def replyHeader (req : Message) (svc : UInt8) : Message :=
  (((Message.new.setTid req.tid).setSeoj req.deoj).setDeoj req.seoj : Message) |> fun m =>
    { m with esvByte := svc }

theorem errorMessage_eq (req : Message) (h : isRequestByte req.esvByte = true) :
    responseErrorMessage req =
      { replyHeader req (errorByte req.esvByte) with
        properties := if req.esvByte = 0x6E then req.setProperties ++ req.setProperties
                      else req.properties } := by
  rw [responseErrorMessage_eq req h]
  have := errorEsv_byte _ h
  simp only [replyHeader, Message.setEsv, Message.setTid, Message.setSeoj, Message.setDeoj, Message.new,
    Message.esv, ← this]

theorem readData_eq {o : Object} (hk : KeysOk o) {ps : List WProperty}
    (h : ∀ r ∈ ps, ∃ p, o.properties r.code = some p) : readData o ps = some (dataOf o ps) := by
  induction ps with
  | nil => rfl
  | cons r rs ih =>
    obtain ⟨p, hp⟩ := h r (by simp)
    have := ih (fun r hr => h r (by simp [hr]))
    simp [readData, hp, this, dataOf, hk _ _ hp]

/-- The positive reply. -/
def okMessage (o : Object) (req : Message) (svc : UInt8) : Message :=
  { replyHeader req svc with
    properties := if req.esvByte = 0x61 ∨ req.esvByte = 0x74 then ackOf req.properties
      else if req.esvByte = 0x62 ∨ req.esvByte = 0x63 then dataOf o req.properties else []
    setProperties := if req.esvByte = 0x6E then ackOf req.setProperties else []
    getProperties := if req.esvByte = 0x6E then dataOf o req.getProperties else [] }

theorem messageReceived_eq {o : Object} (hk : KeysOk o) {req : Message}
    (hr : isRequestByte req.esvByte = true)
    (h : ∀ r ∈ readsOf req, ∃ p, o.properties r.code = some p) :
    o.messageReceived req = (successByte req.esvByte).map (okMessage o req) := by
  unfold readsOf at h
  rcases (isRequestByte_iff _).mp hr with e | e | e | e | e | e
  · have he : req.esv = .WriteRequest := (fromU8_60 _).mpr e
    rw [show successByte req.esvByte = none by rw [e]; rfl]
    simp only [Object.messageReceived, he]; rfl
  · have he : req.esv = .WriteRequestResponseRequired := (fromU8_61 _).mpr e
    rw [show successByte req.esvByte = some 0x71 by rw [e]; rfl]
    simp only [Object.messageReceived, he, ackLoop_addProperty, responseMessage]
    simp [e, okMessage, replyHeader, responseEsv, ESV.toU8, Message.setEsv, Message.setTid, Message.setSeoj,
      Message.setDeoj, Message.new, ackOf]
  · have he : req.esv = .ReadRequest := (fromU8_62 _).mpr e
    rw [show successByte req.esvByte = some 0x72 by rw [e]; rfl]
    simp only [e] at h
    simp only [Object.messageReceived, he, readLoop_addProperty, readData_eq hk (ps := req.properties)
      (by simpa using h), responseMessage]
    simp [e, okMessage, replyHeader, responseEsv, ESV.toU8, Message.setEsv, Message.setTid, Message.setSeoj,
      Message.setDeoj, Message.new, ackOf]
  · have he : req.esv = .NotificationRequest := (fromU8_63 _).mpr e
    rw [show successByte req.esvByte = some 0x73 by rw [e]; rfl]
    simp only [e] at h
    simp only [Object.messageReceived, he, readLoop_addProperty, readData_eq hk (ps := req.properties)
      (by simpa using h), responseMessage]
    simp [e, okMessage, replyHeader, responseEsv, ESV.toU8, Message.setEsv, Message.setTid, Message.setSeoj,
      Message.setDeoj, Message.new, ackOf]
  · have he : req.esv = .WriteReadRequest := (fromU8_6E _).mpr e
    rw [show successByte req.esvByte = some 0x7E by rw [e]; rfl]
    simp only [e] at h
    simp only [Object.messageReceived, he, readLoop_addPropertyGet, ackLoop_addPropertySet,
      readData_eq hk (ps := req.getProperties) (by simpa using h), responseMessage]
    simp [e, okMessage, replyHeader, responseEsv, ESV.toU8, Message.setEsv, Message.setTid, Message.setSeoj,
      Message.setDeoj, Message.new, ackOf]
  · have he : req.esv = .NotificationResponseRequired := (fromU8_74 _).mpr e
    rw [show successByte req.esvByte = some 0x7A by rw [e]; rfl]
    simp only [Object.messageReceived, he, ackLoop_addProperty, responseMessage]
    simp [e, okMessage, replyHeader, responseEsv, ESV.toU8, Message.setEsv, Message.setTid, Message.setSeoj,
      Message.setDeoj, Message.new, ackOf]

/-! ## Observing -/

namespace Node
variable {S : Type}

/-- The first part of `observe` only touches the pending post. -/
theorem observe_first {b : Build} {ω : HashOrder} {ok : Nat → Bool} {n n' : Node S} {msg : Message}
    {outs : List Out} (h : n.observe b ω ok msg = .ok (n', outs)) :
    ∃ q pouts r, (q = n ∧ pouts = [] ∨ isRequestByte msg.esvByte = false ∧ q = { n with post := none } ∧
        txs pouts = [] ∧ handed pouts = []) ∧
      q.messageReceived b ω msg = .ok r ∧
      (match r.1 with
        | none => n' = r.2 ∧ outs = pouts
        | some res => if res.esv.isResponse then
            if res.esv.isUnicastResponse then
              let s := r.2.sendMessage ok ⟨msg.sender.ip, port⟩ res
              n' = s.2.2.1 ∧ outs = pouts ++ s.2.2.2
            else
              let s := r.2.notify ok res
              n' = s.2.2.1 ∧ outs = pouts ++ s.2.2.2
          else n' = r.2 ∧ outs = pouts) := by
  unfold observe at h
  obtain ⟨p, hp, h⟩ := Res.bind_eq_ok.mp h
  obtain ⟨r, hr, h⟩ := Res.bind_eq_ok.mp h
  refine ⟨p.1, p.2, r, ?_, hr, ?_⟩
  · unfold observePost at hp
    by_cases hl : n.isLastMessageResponse msg = true
    · rw [if_pos hl] at hp
      obtain ⟨m, _, hp⟩ := Res.bind_eq_ok.mp hp
      simp only [Res.pure_eq, Res.ok.injEq] at hp
      subst hp
      refine Or.inr ⟨?_, rfl, ?_, ?_⟩
      · unfold isLastMessageResponse at hl
        rw [← isRequest_byte]
        cases hq : msg.esv.isRequest with
        | true => simp [hq] at hl
        | false => exact hq
      · unfold sendPostResponse; simp only []; cases n.post <;> rfl
      · unfold sendPostResponse; simp only []; cases n.post <;> rfl
    · rw [if_neg hl] at hp
      simp only [Res.ok.injEq] at hp
      subst hp
      exact Or.inl ⟨rfl, rfl⟩
  · cases hr1 : r.1 with
    | none =>
      simp only [hr1, Res.pure_eq, Res.ok.injEq, Prod.mk.injEq] at h
      exact ⟨h.1.symm, h.2.symm⟩
    | some res =>
      simp only [hr1] at h ⊢
      by_cases h1 : res.esv.isResponse = true
      · rw [if_pos h1] at h ⊢
        by_cases h2 : res.esv.isUnicastResponse = true
        · rw [if_pos h2] at h ⊢
          simp only [Res.pure_eq, Res.ok.injEq, Prod.mk.injEq] at h
          exact ⟨h.1.symm, h.2.symm⟩
        · rw [if_neg h2] at h ⊢
          simp only [Res.pure_eq, Res.ok.injEq, Prod.mk.injEq] at h
          exact ⟨h.1.symm, h.2.symm⟩
      · rw [if_neg h1] at h ⊢
        simp only [Res.pure_eq, Res.ok.injEq, Prod.mk.injEq] at h
        exact ⟨h.1.symm, h.2.symm⟩

/-- How a reply is transmitted. -/
def transmit (ok : Nat → Bool) (n : Node S) (msg res : Message) : List Tx :=
  if isNotificationByte res.esvByte then (n.transport.notify ok (n.updateTid res).1).2
  else (n.transport.send ok ⟨msg.sender.ip, port⟩ (n.updateTid res).1).2

theorem updateTid_frame (n : Node S) (m : Message) :
    (n.updateTid m).2 = { n with lastTid := (n.updateTid m).2.lastTid } := by
  rw [updateTid_eq]; split <;> rfl

theorem updateTid_objects (n : Node S) (m : Message) : (n.updateTid m).2.objects = n.objects := by
  rw [updateTid_frame]
theorem updateTid_transport (n : Node S) (m : Message) : (n.updateTid m).2.transport = n.transport := by
  rw [updateTid_frame]

/-- A non-request leaves no trace but the pending post. -/
theorem observe_nonrequest {b : Build} {ω : HashOrder} {ok : Nat → Bool} {n n' : Node S} {msg : Message}
    {outs : List Out} (hr : isRequestByte msg.esvByte = false) (h : n.observe b ω ok msg = .ok (n', outs)) :
    (n' = n ∨ n' = { n with post := none }) ∧ txs outs = [] ∧ handed outs = [] := by
  obtain ⟨q, pouts, r, hq, hm, hres⟩ := observe_first h
  have ho := messageReceived_outcome (res := r.1) (n' := r.2) hm
  have hnone : r.1 = none ∧ r.2 = q := by
    generalize r.1 = r1 at ho
    generalize r.2 = r2 at ho
    cases ho with
    | silent _ => exact ⟨rfl, rfl⟩
    | invalid _ _ _ h' => simp [hr] at h'
    | refused _ _ _ _ h' => simp [hr] at h'
    | accepted _ _ _ _ _ h' => simp [hr] at h'
  rw [hnone.1] at hres
  simp only [] at hres
  obtain ⟨rfl, rfl⟩ := hres
  rw [hnone.2]
  rcases hq with ⟨rfl, rfl⟩ | ⟨_, rfl, h1, h2⟩
  · exact ⟨Or.inl rfl, rfl, rfl⟩
  · exact ⟨Or.inr rfl, h1, h2⟩

theorem observe_request {b : Build} {ω : HashOrder} {ok : Nat → Bool} {n n' : Node S} {msg : Message}
    {outs : List Out} (hr : isRequestByte msg.esvByte = true) (h : n.observe b ω ok msg = .ok (n', outs)) :
    ∃ r n₁, Outcome b ω n msg r n₁ ∧
      ((r = none ∧ n' = n₁ ∧ outs = []) ∨
       (∃ res, r = some res ∧ (isResponseByte res.esvByte = true →
          n' = (n₁.updateTid res).2 ∧
          outs = .handed res (n₁.updateTid res).1 :: (transmit ok n₁ msg res).map .tx) ∧
          (isResponseByte res.esvByte = false → outs = []))) := by
  obtain ⟨q, pouts, r, hq, hm, hres⟩ := observe_first h
  have hq' : q = n ∧ pouts = [] := by
    rcases hq with hq | ⟨h', _⟩
    · exact hq
    · simp [hr] at h'
  obtain ⟨rfl, rfl⟩ := hq'
  have ho := messageReceived_outcome (res := r.1) (n' := r.2) hm
  refine ⟨r.1, r.2, ho, ?_⟩
  cases hr1 : r.1 with
  | none =>
    rw [hr1] at hres
    simp only [] at hres
    exact Or.inl ⟨rfl, hres.1, hres.2⟩
  | some res =>
    rw [hr1] at hres
    simp only [] at hres
    refine Or.inr ⟨res, rfl, fun hresp => ?_, fun hresp => by
      have h1 : ¬ res.esv.isResponse = true := by rw [Message.esv, isResponse_byte, hresp]; simp
      rw [if_neg h1] at hres
      exact hres.2⟩
    have h1 : res.esv.isResponse = true := by rw [Message.esv, isResponse_byte, hresp]
    rw [if_pos h1] at hres
    have h2 : res.esv.isUnicastResponse = !isNotificationByte res.esvByte := by
      rw [Message.esv, isUnicast_byte, hresp]; rfl
    unfold transmit
    cases hn : isNotificationByte res.esvByte with
    | true =>
      rw [h2, hn] at hres
      simp only [Bool.not_true, Bool.false_eq_true, if_false, if_true, notify, List.nil_append,
        updateTid_transport] at hres ⊢
      exact hres
    | false =>
      rw [h2, hn] at hres
      simp only [Bool.not_false, Bool.false_eq_true, if_false, if_true, sendMessage, List.nil_append,
        updateTid_transport] at hres ⊢
      exact hres

end Node

theorem successByte_response (e s : UInt8) (h : successByte e = some s) : isResponseByte s = true := by
  revert e s; decide +kernel
theorem errorByte_response (e : UInt8) : isResponseByte (errorByte e) = true := by
  revert e; decide +kernel
theorem errorByte_not_success (e s : UInt8) (h : successByte e = some s) : s ≠ errorByte e := by
  revert e s; decide +kernel
theorem errorByte_unicast (e : UInt8) : isNotificationByte (errorByte e) = false := by
  revert e; decide +kernel

/-! ## The object after an accepted request -/

namespace Node
variable {S : Type}

theorem writeLoop_attrs (o : Object) (ws : List WProperty) (c : UInt8) :
    ((writeLoop o ws).properties c).map attrsOf = (o.properties c).map attrsOf := by
  rw [writeLoop_props, Option.map_map]
  cases o.properties c with
  | none => rfl
  | some p => cases h : lastWrite ws c <;> simp [attrsOf_setData, h]

theorem copyBack_attrs (o : Object) (ps : List Property) (c : UInt8) :
    ((copyBack o ps).properties c).map attrsOf = (o.properties c).map attrsOf := by
  rw [copyBack_eq]; exact writeLoop_attrs _ _ _

theorem keysOk_of_attrs {o o' : Object} (h : ∀ c, (o'.properties c).map attrsOf = (o.properties c).map attrsOf)
    (hk : KeysOk o) : KeysOk o' := by
  intro k p hp
  have := h k
  rw [hp] at this
  simp only [Option.map_some] at this
  obtain ⟨q, hq, he⟩ := Option.map_eq_some_iff.mp this.symm
  have h1 := hk k q hq
  have h2 : (attrsOf q).code = (attrsOf p).code := by rw [he]
  exact h2.symm.trans h1

theorem exists_of_attrs {o o' : Object} (h : ∀ c, (o'.properties c).map attrsOf = (o.properties c).map attrsOf)
    {c : UInt8} {p : Property} (hp : o.properties c = some p) :
    ∃ q, o'.properties c = some q ∧ attrsOf q = attrsOf p := by
  have := h c
  rw [hp] at this
  simp only [Option.map_some] at this
  obtain ⟨q, hq, he⟩ := Option.map_eq_some_iff.mp this
  exact ⟨q, hq, he⟩

theorem split_unique {c : UInt32} {pre pre' post post' : List Object} {dst dst' : Object}
    (h : pre ++ dst :: post = pre' ++ dst' :: post') (h1 : ∀ o ∈ pre, o.code ≠ c) (h2 : dst.code = c)
    (h3 : ∀ o ∈ pre', o.code ≠ c) (h4 : dst'.code = c) : pre' = pre ∧ dst' = dst ∧ post' = post := by
  induction pre generalizing pre' with
  | nil =>
    cases pre' with
    | nil =>
      simp only [List.nil_append, List.cons.injEq] at h
      exact ⟨rfl, h.1.symm, h.2.symm⟩
    | cons x xs =>
      simp only [List.nil_append, List.cons_append, List.cons.injEq] at h
      exact absurd (h.1 ▸ h2) (h3 x (by simp))
  | cons x xs ih =>
    cases pre' with
    | nil =>
      simp only [List.nil_append, List.cons_append, List.cons.injEq] at h
      exact absurd (h.1 ▸ h4) (h1 x (by simp))
    | cons y ys =>
      simp only [List.cons_append, List.cons.injEq] at h
      obtain ⟨rfl, h⟩ := h
      obtain ⟨rfl, rfl, rfl⟩ := ih h (fun o ho => h1 o (by simp [ho])) (fun o ho => h3 o (by simp [ho]))
      exact ⟨rfl, rfl, rfl⟩

/-- The four things that can happen to a request addressed to `dst`; everything visible from outside. -/
theorem observe_target {b : Build} {ω : HashOrder} {ok : Nat → Bool} {n n' : Node S} {msg : Message}
    {outs : List Out} {pre post : List Object} {dst : Object} (ht : Targets n msg pre dst post)
    (hk : KeysOk dst) (hr : isRequestByte msg.esvByte = true) (h : n.observe b ω ok msg = .ok (n', outs)) :
    ∃ copy app, SameProps copy.properties dst.properties ∧ Object.SameId dst copy ∧
      ((¬ Allowed dst msg → app = n.app) ∧
        (Allowed dst msg → app = (afterHandlers msg.esv msg.properties n.handlers (copy, n.app)).2)) ∧
      ((¬ Accepted n msg dst copy ∧
          let n₁ := { n with app := app }
          n' = (n₁.updateTid (responseErrorMessage msg)).2 ∧
          outs = .handed (responseErrorMessage msg) (n₁.updateTid (responseErrorMessage msg)).1 ::
            (transmit ok n₁ msg (responseErrorMessage msg)).map .tx) ∨
       (Accepted n msg dst copy ∧ ∃ dst',
          dst' = writeLoop (copyBack dst
            ((afterHandlers msg.esv msg.properties n.handlers (copy, n.app)).1.values (ω.sub 1).here))
            (writesOf msg) ∧ KeysOk dst' ∧ dst'.code = dst.code ∧
          let n₁ := { n with app := app, objects := pre ++ dst' :: post }
          ((successByte msg.esvByte = none ∧ n' = n₁ ∧ outs = []) ∨
           ∃ svc, successByte msg.esvByte = some svc ∧
            n' = (n₁.updateTid (okMessage dst' msg svc)).2 ∧
            outs = .handed (okMessage dst' msg svc) (n₁.updateTid (okMessage dst' msg svc)).1 ::
              (transmit ok n₁ msg (okMessage dst' msg svc)).map .tx))) := by
  obtain ⟨r, n₁, ho, hres⟩ := observe_request hr h
  have herr : isResponseByte (responseErrorMessage msg).esvByte = true := by
    rw [errorMessage_eq msg hr]; exact errorByte_response _
  generalize hr0 : r = r' at ho hres
  cases ho with
  | silent h' =>
    rcases h' with h' | h'
    · simp [hr] at h'
    · exact absurd ht.code (h' dst (by rw [ht.split]; simp))
  | invalid pre' dst' post' hr' ho' hpre hd hv =>
    obtain ⟨rfl, rfl, rfl⟩ := split_unique (ht.split.symm.trans ho') ht.first ht.code hpre hd
    refine ⟨dst', n.app, SameProps.refl _, Object.SameId.refl _, ⟨fun _ => rfl, fun h => absurd h hv⟩, Or.inl ⟨fun ha => hv ha.1, ?_⟩⟩
    rcases hres with ⟨h', _⟩ | ⟨res, h', hres, _⟩
    · simp at h'
    · simp only [Option.some.injEq] at h'
      subst h'
      exact hres herr
  | refused pre' dst' post' copy hr' ho' hpre hd hv hc hh =>
    obtain ⟨rfl, rfl, rfl⟩ := split_unique (ht.split.symm.trans ho') ht.first ht.code hpre hd
    obtain ⟨hs1, hs2⟩ := Object.clone_same hk hc
    refine ⟨copy, _, hs1, hs2, ⟨fun h => absurd hv h, fun _ => rfl⟩, Or.inl ⟨fun ha => hh ha.2, ?_⟩⟩
    rcases hres with ⟨h', _⟩ | ⟨res, h', hres, _⟩
    · simp at h'
    · simp only [Option.some.injEq] at h'
      subst h'
      exact hres herr
  | accepted pre' dst' post' copy dst'' hr' ho' hpre hd hv hc hh hw =>
    obtain ⟨rfl, rfl, rfl⟩ := split_unique (ht.split.symm.trans ho') ht.first ht.code hpre hd
    obtain ⟨hs1, hs2⟩ := Object.clone_same hk hc
    have hattrs : ∀ c, (dst''.properties c).map attrsOf = (dst'.properties c).map attrsOf := by
      intro c; rw [hw, writeLoop_attrs, copyBack_attrs]
    have hk' : KeysOk dst'' := keysOk_of_attrs hattrs hk
    have hcode : dst''.code = dst'.code := by
      rw [hw, code_of_sameId (writeLoop_sameId _ _), code_of_sameId (copyBack_sameId _ _)]
    refine ⟨copy, _, hs1, hs2, ⟨fun h => absurd hv h, fun _ => rfl⟩, Or.inr ⟨⟨hv, hh⟩, dst'', hw, hk', hcode, ?_⟩⟩
    rw [messageReceived_eq hk' hr (fun r hr => by
      obtain ⟨p, hp, _⟩ := hv.2 r hr
      obtain ⟨q, hq, _⟩ := exists_of_attrs hattrs hp
      exact ⟨q, hq⟩)] at hres hr0
    cases hsb : successByte msg.esvByte with
    | none =>
      left
      rcases hres with ⟨_, h2, h3⟩ | ⟨res, h', hres, _⟩
      · exact ⟨rfl, h2, h3⟩
      · simp [hsb] at h'
    | some svc =>
      right
      refine ⟨svc, rfl, ?_⟩
      rcases hres with ⟨h', _⟩ | ⟨res, h', hres, _⟩
      · simp [hsb] at h'
      · simp only [hsb, Option.map_some, Option.some.injEq] at h'
        subst h'
        exact hres (successByte_response _ _ hsb)

end Node

theorem replies_handed (g u : Message) (l : List Tx) : replies (Out.handed g u :: l.map Out.tx) = [u] := by
  unfold replies; rw [handed_handed_cons]; rfl

theorem replyHeader_facts (req : Message) (svc : UInt8) :
    (replyHeader req svc).tid = req.tid ∧ (replyHeader req svc).seoj = req.deoj ∧
    (replyHeader req svc).deoj = req.seoj ∧ (replyHeader req svc).esvByte = svc ∧
    (replyHeader req svc).isFormat1 = true := by
  refine ⟨?_, ?_, ?_, rfl, rfl⟩
  · exact (C09_header_accessors Message.new req.tid 0 .Unknown).1
  · apply UInt32.toNat.inj
    have := (C09_header_accessors (Message.new.setTid req.tid) 0 req.deoj .Unknown).2.1
    rw [Nat.mod_eq_of_lt (show req.deoj.toNat < 2 ^ 24 from Message.objectCode_lt _)] at this
    exact this
  · apply UInt32.toNat.inj
    have := (C09_header_accessors ((Message.new.setTid req.tid).setSeoj req.deoj) 0 req.seoj .Unknown).2.2.1
    rw [Nat.mod_eq_of_lt (show req.seoj.toNat < 2 ^ 24 from Message.objectCode_lt _)] at this
    exact this

/-- Header of a message with the given header fields. -/
structure HasHeader (u : Message) (tid : UInt16) (seoj deoj : UInt32) (svc : UInt8) : Prop where
  tid : u.tid = tid
  seoj : u.seoj = seoj
  deoj : u.deoj = deoj
  esv : u.esvByte = svc
  fmt : u.isFormat1 = true

/-- The transmitted reply has the header of the reply, with a fresh TID if it had none. -/
theorem updateTid_header {S : Type} (n : Node S) (msg res : Message) (svc : UInt8)
    (h : HasHeader res msg.tid msg.deoj msg.seoj svc) :
    HasHeader (n.updateTid res).1 (if msg.tid = 0 then n.lastTid + 1 else msg.tid) msg.deoj msg.seoj svc ∧
    (n.updateTid res).1.properties = res.properties ∧
    (n.updateTid res).1.setProperties = res.setProperties ∧
    (n.updateTid res).1.getProperties = res.getProperties := by
  rw [Node.updateTid_eq, h.tid]
  split
  · refine ⟨⟨?_, h.seoj, h.deoj, h.esv, h.fmt⟩, rfl, rfl, rfl⟩
    exact (C09_header_accessors res (n.lastTid + 1) 0 .Unknown).1
  · exact ⟨h, rfl, rfl, rfl⟩

theorem errorMessage_header (req : Message) (h : isRequestByte req.esvByte = true) :
    HasHeader (responseErrorMessage req) req.tid req.deoj req.seoj (errorByte req.esvByte) := by
  obtain ⟨h1, h2, h3, h4, h5⟩ := replyHeader_facts req (errorByte req.esvByte)
  rw [errorMessage_eq req h]
  exact ⟨h1, h2, h3, h4, h5⟩

theorem okMessage_header (o : Object) (req : Message) (svc : UInt8) :
    HasHeader (okMessage o req svc) req.tid req.deoj req.seoj svc := by
  obtain ⟨h1, h2, h3, h4, h5⟩ := replyHeader_facts req svc
  exact ⟨h1, h2, h3, h4, h5⟩

namespace Node
variable {S : Type}

/-- Everything about a reply `u` put out while observing `msg`. -/
theorem reply_cases {b : Build} {ω : HashOrder} {ok : Nat → Bool} {n n' : Node S} {msg : Message}
    {outs : List Out} (hk : ∀ o ∈ n.objects, KeysOk o) (h : n.observe b ω ok msg = .ok (n', outs))
    {u : Message} (hu : u ∈ replies outs) :
    isRequestByte msg.esvByte = true ∧ replies outs = [u] ∧ deliveries outs = [] ∧
    n'.transport = n.transport ∧
    (∃ svc, HasHeader u (if msg.tid = 0 then n.lastTid + 1 else msg.tid) msg.deoj msg.seoj svc ∧
      txs outs = (if isNotificationByte svc then (n.transport.notify ok u).2
        else (n.transport.send ok ⟨msg.sender.ip, port⟩ u).2) ∧
      ((svc = errorByte msg.esvByte ∧ n'.objects = n.objects ∧
        u.properties = (if msg.esvByte = 0x6E then msg.setProperties ++ msg.setProperties else msg.properties) ∧
        u.setProperties = [] ∧ u.getProperties = []) ∨
       (successByte msg.esvByte = some svc ∧ ∃ pre dst post dst', Targets n msg pre dst post ∧
        Allowed dst msg ∧ n'.objects = pre ++ dst' :: post ∧ KeysOk dst' ∧ dst'.code = msg.deoj ∧
        (∀ c, (dst'.properties c).map attrsOf = (dst.properties c).map attrsOf) ∧
        u.properties = (okMessage dst' msg svc).properties ∧
        u.setProperties = (okMessage dst' msg svc).setProperties ∧
        u.getProperties = (okMessage dst' msg svc).getProperties))) := by
  have hr : isRequestByte msg.esvByte = true := by
    cases hr : isRequestByte msg.esvByte with
    | true => rfl
    | false =>
      have := (observe_nonrequest hr h).2.2
      simp [replies, this] at hu
  refine ⟨hr, ?_⟩
  -- there is a target
  have htarget : ∃ pre dst post, Targets n msg pre dst post := by
    cases hf : findObject n.objects msg.deoj with
    | some dst =>
      obtain ⟨pre, post, h1, h2, h3⟩ := findObject_split hf
      exact ⟨pre, dst, post, h1, h2, h3⟩
    | none =>
      exfalso
      obtain ⟨r, n₁, ho, hres⟩ := observe_request hr h
      have hno := findObject_none_iff.mp hf
      have : r = none := by
        cases ho with
        | silent _ => rfl
        | invalid pre dst post _ h1 _ h2 => exact absurd h2 (hno dst (by rw [h1]; simp))
        | refused pre dst post _ _ h1 _ h2 => exact absurd h2 (hno dst (by rw [h1]; simp))
        | accepted pre dst post _ _ _ h1 _ h2 => exact absurd h2 (hno dst (by rw [h1]; simp))
      rcases hres with ⟨_, _, rfl⟩ | ⟨res, h', _⟩
      · simp [replies, handed] at hu
      · simp [this] at h'
  obtain ⟨pre, dst, post, ht⟩ := htarget
  have hkd : KeysOk dst := hk dst (by rw [ht.split]; simp)
  obtain ⟨copy, app, _, _, _, hc⟩ := observe_target ht hkd hr h
  rcases hc with ⟨_, hn, ho⟩ | ⟨hacc, dst', hw, hk', hcode, hc⟩
  · rw [ho, replies_handed] at hu
    have hu' : u = (updateTid { n with app := app } (responseErrorMessage msg)).1 := by simpa using hu
    obtain ⟨hh, hp1, hp2, hp3⟩ := updateTid_header { n with app := app } msg _ _ (errorMessage_header msg hr)
    rw [← hu'] at hh hp1 hp2 hp3
    refine ⟨by rw [ho, replies_handed, hu'], by rw [ho, deliveries_handed_cons], ?_, _, hh, ?_, ?_⟩
    · rw [hn, updateTid_transport]
    · rw [ho, txs_handed_cons]
      unfold transmit
      have : (responseErrorMessage msg).esvByte = errorByte msg.esvByte := (errorMessage_header msg hr).esv
      rw [this, ← hu']
    · left
      refine ⟨rfl, by rw [hn, updateTid_objects], ?_, ?_, ?_⟩
      · rw [hp1, errorMessage_eq msg hr]
      · rw [hp2, errorMessage_eq msg hr]; rfl
      · rw [hp3, errorMessage_eq msg hr]; rfl
  · rcases hc with ⟨_, _, rfl⟩ | ⟨svc, hsvc, hn, ho⟩
    · simp [replies, handed] at hu
    · rw [ho, replies_handed] at hu
      have hu' : u = (updateTid { n with app := app, objects := pre ++ dst' :: post }
          (okMessage dst' msg svc)).1 := by simpa using hu
      obtain ⟨hh, hp1, hp2, hp3⟩ := updateTid_header
        { n with app := app, objects := pre ++ dst' :: post } msg _ _ (okMessage_header dst' msg svc)
      rw [← hu'] at hh hp1 hp2 hp3
      refine ⟨by rw [ho, replies_handed, hu'], by rw [ho, deliveries_handed_cons], ?_, _, hh, ?_, ?_⟩
      · rw [hn, updateTid_transport]
      · rw [ho, txs_handed_cons]
        unfold transmit
        have : (okMessage dst' msg svc).esvByte = svc := (okMessage_header dst' msg svc).esv
        rw [this, ← hu']
      · right
        refine ⟨hsvc, pre, dst, post, dst', ht, hacc.1, by rw [hn, updateTid_objects], hk', hcode.trans ht.code,
          ?_, hp1, hp2, hp3⟩
        intro c; rw [hw, writeLoop_attrs, copyBack_attrs]

end Node
end Uecho
