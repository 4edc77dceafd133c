import Verif.Props.Request
/-!
# Sequences of remote messages, handlers, routing: C33 – C36
-/
namespace Uecho
open Spec
variable {S : Type}

/-! ## C33 -/

/-- C33 (all services but write-read 0x6E): if a message changes any object, it is a request to an
existing object, and some handler was called for, and accepted, every property in it. `n.handlers ≠ []`
holds for every node made by `Node::new`, which registers the built-in handler. Missing: 0x6E, see `C33_write_read_bypasses_handlers`. -/
theorem C33_handler_approval_partial (b : Build) (ω : HashOrder) (ok : Nat → Bool) (n n' : Node S)
    (msg : Message) (outs : List Out) (hk : ∀ o ∈ n.objects, KeysOk o) (hne : n.handlers ≠ [])
    (h : n.observe b ω ok msg = .ok (n', outs)) (h6 : msg.esvByte ≠ 0x6E)
    (hch : n'.objects ≠ n.objects) :
    ∃ pre dst post copy, Targets n msg pre dst post ∧ SameProps copy.properties dst.properties ∧
      copy.code = dst.code ∧ (∀ w ∈ writesOf msg, w ∈ msg.properties) ∧
      SomeAccepts msg.esv msg.properties n.handlers (copy, n.app) := by
  rcases targets_or_silent n msg with ⟨pre, dst, post, ht⟩ | hno
  rotate_left
  · exact absurd (C25_silence b ω ok n n' msg outs h (Or.inr hno)).2.2.1 hch
  cases hr : isRequestByte msg.esvByte with
  | false => exact absurd (C25_silence b ω ok n n' msg outs h (Or.inl hr)).2.2.1 hch
  | true =>
    have hkd : KeysOk dst := hk dst (by rw [ht.split]; simp)
    obtain ⟨copy, app, hs, hid, _, hc⟩ := Node.observe_target ht hkd hr h
    rcases hc with ⟨_, hn, _⟩ | ⟨hacc, _⟩
    · exact absurd (by rw [hn, Node.updateTid_objects]) hch
    · refine ⟨pre, dst, post, copy, ht, hs, Node.code_of_sameId hid, ?_, ?_⟩
      · intro w hw
        unfold writesOf at hw
        rw [if_neg h6] at hw
        split at hw
        · exact hw
        · simp at hw
      · rcases hacc.2 with h0 | h0
        · exact absurd h0 hne
        · exact h0

/-- C33 is false for write-read requests: whatever handlers are registered — even if every one of them
refuses everything — a 0x6E request that the access attributes allow is accepted and its data stored.
(`msg.properties = []` holds for every 0x6E message received from the network.) -/
theorem C33_write_read_bypasses_handlers (b : Build) (ω : HashOrder) (ok : Nat → Bool) (n n' : Node S)
    (msg : Message) (outs : List Out) (pre post : List Object) (dst : Object)
    (ht : Targets n msg pre dst post) (hk : KeysOk dst) (h6 : msg.esvByte = 0x6E)
    (hp : msg.properties = []) (ha : Allowed dst msg) (hpas : ∀ h ∈ n.handlers, Passive h)
    (h : n.observe b ω ok msg = .ok (n', outs)) :
    (replies outs).map (fun u => u.esvByte) = [0x7E] ∧
    ∃ dst', n'.objects = pre ++ dst' :: post ∧
      ∀ c d, lastWrite msg.setProperties c = some d → ∃ p', dst'.properties c = some p' ∧ p'.data = d := by
  have hr : isRequestByte msg.esvByte = true := by rw [h6]; rfl
  have hacc : ∀ copy, Accepted n msg dst copy := by
    intro copy
    refine ⟨ha, ?_⟩
    cases hh : n.handlers with
    | nil => exact Or.inl rfl
    | cons h0 hs => right; rw [hp]; exact Or.inl trivial
  obtain ⟨copy, _, _, h1, _⟩ := C26_accept_iff b ω ok n n' msg outs pre post dst ht hk hr h
  refine ⟨by rw [h1 (hacc _), h6]; rfl, ?_⟩
  have hkk : ∀ h ∈ n.handlers, KeepsKeys h := by
    intro h' hm s o esv p hk
    rw [hpas h' hm]; exact hk
  obtain ⟨copy, _, _, hc, _⟩ := accepted_write b ω ok n n' msg outs pre post dst ht hk hr hkk h
  obtain ⟨dst', ho, _, hattrs, hd⟩ := hc (hacc _)
  refine ⟨dst', ho, fun c d hl => ?_⟩
  have hws : writesOf msg = msg.setProperties := by simp [writesOf, h6]
  obtain ⟨p, hp1, _⟩ := ha.1 ⟨c, d⟩ (by rw [hws]; exact lastWrite_mem hl)
  obtain ⟨p', hp', _⟩ := Node.exists_of_attrs hattrs hp1
  have := hd c p' hp'
  rw [hws, hl] at this
  exact ⟨p', hp', this⟩

/-- C33: received write-read requests have no plain property list. -/
theorem C33_received_write_read (d : List UInt8) (m : Message)
    (h : Message.parse Message.new d = .ok (true, m)) (h6 : m.esvByte = 0x6E) : m.properties = [] := by
  obtain ⟨f, rest, hv, hd, hf, h2, h3, h4, h5, _, h7⟩ := Message.parse_sound _ _ _ h
  obtain ⟨_, _, _, hv⟩ := hv
  cases hb : f.body with
  | single ps =>
    rw [hb] at hv
    rw [← h5, h6] at hv
    exact absurd hv.1 (by decide)
  | setGet s g =>
    rw [hb] at h7
    exact h7.1

/-- A refusing handler does not stop a write-read request. -/
theorem C33_fails : ∃ n, exNode [nodeHandler, refuseAll] = .ok n ∧
    n.property 0x029001 0xB0 = some [0x30] ∧
    ∃ r, n.observe .dev .ascending allOk ((exRequest .WriteReadRequest 7).addPropertySet ⟨0xB0, [0x41]⟩)
      = .ok r ∧ r.1.property 0x029001 0xB0 = some [0x41] := by
  refine ⟨_, rfl, ?_, _, rfl, ?_⟩ <;> decide +kernel

/-! ## C34 -/

theorem sameObjects_refl (l : List Object) : SameObjects l l :=
  ⟨rfl, fun _ _ _ => ⟨rfl, SameProps.refl _⟩⟩

theorem sameObjects_trans {a b c : List Object} (h : SameObjects a b) (h' : SameObjects b c) :
    SameObjects a c := by
  refine ⟨h'.1.trans h.1, fun i hi hi' => ?_⟩
  have hb : i < b.length := by rw [h.1]; exact hi
  exact ⟨(h'.2 i hb hi').1.trans (h.2 i hi hb).1, (h'.2 i hb hi').2.trans (h.2 i hi hb).2⟩

theorem sameObjects_replace (pre post : List Object) {o o' : Object} (hc : o'.code = o.code)
    (hp : SameProps o'.properties o.properties) : SameObjects (pre ++ o :: post) (pre ++ o' :: post) := by
  refine ⟨by simp, fun i hi hi' => ?_⟩
  rcases Nat.lt_trichotomy i pre.length with hlt | heq | hgt
  · rw [List.getElem_append_left hlt, List.getElem_append_left hlt]
    exact ⟨rfl, SameProps.refl _⟩
  · subst heq
    simp only [List.getElem_append_right (Nat.le_refl _), Nat.sub_self, List.getElem_cons_zero]
    exact ⟨hc, hp⟩
  · rw [List.getElem_append_right (Nat.le_of_lt hgt), List.getElem_append_right (Nat.le_of_lt hgt)]
    obtain ⟨k, hk⟩ : ∃ k, i - pre.length = k + 1 := ⟨i - pre.length - 1, by omega⟩
    simp only [hk, List.getElem_cons_succ]
    exact ⟨trivial, SameProps.refl _⟩

theorem sameObjects_keysOk {l l' : List Object} (h : SameObjects l l') (hk : ∀ o ∈ l, KeysOk o) :
    ∀ o ∈ l', KeysOk o := by
  intro o ho
  obtain ⟨i, hi, rfl⟩ := List.mem_iff_getElem.mp ho
  have hi0 : i < l.length := by rw [← h.1]; exact hi
  exact Object.keysOk_congr (h.2 i hi0 hi).2.symm (hk _ (List.getElem_mem hi0))

/-- What `observe` never changes. -/
theorem observe_frame {b : Build} {ω : HashOrder} {ok : Nat → Bool} {n n' : Node S} {msg : Message}
    {outs : List Out} (h : n.observe b ω ok msg = .ok (n', outs)) :
    n'.handlers = n.handlers ∧ n'.transport = n.transport ∧ n'.observers = n.observers ∧
      n'.nextChan = n.nextChan := by
  cases hr : isRequestByte msg.esvByte with
  | false =>
    rcases (Node.observe_nonrequest hr h).1 with rfl | rfl <;> exact ⟨rfl, rfl, rfl, rfl⟩
  | true =>
    obtain ⟨q, pouts, r, hq, hm, hres⟩ := Node.observe_first h
    have hq' : q = n := by
      rcases hq with hq | ⟨h', _⟩
      · exact hq.1
      · simp [hr] at h'
    subst hq'
    have ho := Node.messageReceived_outcome (res := r.1) (n' := r.2) hm
    have hn1 : r.2.handlers = q.handlers ∧ r.2.transport = q.transport ∧ r.2.observers = q.observers ∧
        r.2.nextChan = q.nextChan := by
      generalize r.1 = r1 at ho
      generalize r.2 = r2 at ho
      cases ho <;> exact ⟨rfl, rfl, rfl, rfl⟩
    have hu : ∀ res, (r.2.updateTid res).2.handlers = q.handlers ∧
        (r.2.updateTid res).2.transport = q.transport ∧ (r.2.updateTid res).2.observers = q.observers ∧
        (r.2.updateTid res).2.nextChan = q.nextChan := by
      intro res; rw [Node.updateTid_frame]; exact hn1
    cases hr1 : r.1 with
    | none =>
      rw [hr1] at hres
      simp only [] at hres
      rw [hres.1]; exact hn1
    | some res =>
      rw [hr1] at hres
      simp only [] at hres
      split at hres
      · split at hres
        · rw [hres.1]; exact hu res
        · rw [hres.1]; exact hu res
      · rw [hres.1]; exact hn1

/-- One message, built-in handler only, not write-read: no object changes. -/
theorem observe_builtin_same {b : Build} {ω : HashOrder} {ok : Nat → Bool} {n n' : Node S} {msg : Message}
    {outs : List Out} (hk : ∀ o ∈ n.objects, KeysOk o) (hh : n.handlers = [nodeHandler])
    (h6 : msg.esvByte ≠ 0x6E) (h : n.observe b ω ok msg = .ok (n', outs)) :
    SameObjects n.objects n'.objects := by
  rcases targets_or_silent n msg with ⟨pre, dst, post, ht⟩ | hno
  rotate_left
  · rw [(C25_silence b ω ok n n' msg outs h (Or.inr hno)).2.2.1]; exact sameObjects_refl _
  cases hr : isRequestByte msg.esvByte with
  | false => rw [(C25_silence b ω ok n n' msg outs h (Or.inl hr)).2.2.1]; exact sameObjects_refl _
  | true =>
    have hkd : KeysOk dst := hk dst (by rw [ht.split]; simp)
    obtain ⟨copy, app, hs, hid, _, hc⟩ := Node.observe_target ht hkd hr h
    rcases hc with ⟨_, hn, _⟩ | ⟨hacc, dst', hw, hk', hcode, hc⟩
    · rw [hn, Node.updateTid_objects]; exact sameObjects_refl _
    · have hobj : n'.objects = pre ++ dst' :: post := by
        rcases hc with ⟨_, hn, _⟩ | ⟨_, _, hn, _⟩
        · rw [hn]
        · rw [hn, Node.updateTid_objects]
      -- nothing is written
      have hws : writesOf msg = [] := by
        have h2 := hacc.2
        rw [hh] at h2
        simp only [List.cons_ne_nil, false_or, SomeAccepts, or_false] at h2
        unfold writesOf
        rw [if_neg h6]
        split
        · rename_i hw'
          cases hps : msg.properties with
          | nil => rfl
          | cons p ps =>
            rw [hps] at h2
            have h3 := h2.1
            unfold nodeHandler at h3
            split at h3
            · simp at h3
            · rcases hw' with e | e
              · have he : msg.esv = .WriteRequest := (fromU8_60 _).mpr e
                simp [he] at h3
              · have he : msg.esv = .WriteRequestResponseRequired := (fromU8_61 _).mpr e
                simp [he] at h3
        · rfl
      have hpas : ∀ h ∈ n.handlers, Passive h := by
        rw [hh]; intro h' hm
        rw [List.mem_singleton.mp hm]; exact nodeHandler_passive
      rw [hobj, ht.split]
      refine sameObjects_replace pre post hcode ?_
      intro c
      rw [hw, hws]
      have e : (Node.writeLoop (Node.copyBack dst
          ((afterHandlers msg.esv msg.properties n.handlers (copy, n.app)).1.values (ω.sub 1).here)) []) =
          Node.copyBack dst
          ((afterHandlers msg.esv msg.properties n.handlers (copy, n.app)).1.values (ω.sub 1).here) := rfl
      rw [e]
      refine ⟨fun hm => ?_, Node.copyBack_attrs _ _ _⟩
      rw [afterHandlers_passive hpas,
        Node.copyBack_props (Object.keysOk_congr hs.symm hkd) (HashOrder.isOrder _), (hs c).1 hm]
      cases dst.properties c <;> rfl

/-- C34 (no write-read requests): while only the built-in handler is registered, no sequence of received
messages — in any lock situation, with any hash orders and send outcomes — changes the data of any
object of the node (other than recomputed property maps); in particular not the node profile.
Missing: 0x6E, see `C34_write_read_fails`. -/
theorem C34_remote_immutable_partial (b : Build) (n n' : Node S) (l : List Arrival) (outs : List Out)
    (hk : ∀ o ∈ n.objects, KeysOk o) (hh : n.handlers = [nodeHandler])
    (h6 : ∀ a ∈ l, a.msg.esvByte ≠ 0x6E) (h : n.run b (arrivals l) = .ok (n', outs)) :
    SameObjects n.objects n'.objects ∧
    ∀ p, findObject n.objects nodeProfileCode = some p →
      ∃ p', findObject n'.objects nodeProfileCode = some p' ∧ SameProps p'.properties p.properties := by
  have hsame : SameObjects n.objects n'.objects := by
    induction l generalizing n outs with
    | nil =>
      simp only [arrivals, List.map_nil, Node.run, Res.ok.injEq, Prod.mk.injEq] at h
      rw [h.1]; exact sameObjects_refl _
    | cons a l ih =>
      simp only [arrivals, List.map_cons, Node.run] at h
      obtain ⟨r, hr, h⟩ := Res.bind_eq_ok.mp h
      obtain ⟨r', hr', h⟩ := Res.bind_eq_ok.mp h
      simp only [Res.pure_eq, Res.ok.injEq, Prod.mk.injEq] at h
      obtain ⟨rfl, rfl⟩ := h
      simp only [Node.step, Node.observeTry] at hr
      cases hf : a.free with
      | false =>
        simp only [hf, Bool.not_false, if_true, Res.ok.injEq] at hr
        subst hr
        exact ih n r'.2 hk hh (fun a' ha' => h6 a' (by simp [ha'])) hr'
      | true =>
        simp only [hf, Bool.not_true, Bool.false_eq_true, if_false] at hr
        have h1 := observe_builtin_same hk hh (h6 a (by simp)) hr
        have h2 := observe_frame hr
        exact sameObjects_trans h1 (ih r.1 r'.2 (sameObjects_keysOk h1 hk) (h2.1.trans hh)
          (fun a' ha' => h6 a' (by simp [ha'])) hr')
  refine ⟨hsame, fun p hp => ?_⟩
  obtain ⟨pre, post, ho, hpre, hc⟩ := findObject_split hp
  have hlen : pre.length < n.objects.length := by rw [ho]; simp
  have hlen' : pre.length < n'.objects.length := by rw [hsame.1]; exact hlen
  have hget : n.objects[pre.length] = p := by simp [ho]
  obtain ⟨e1, e2⟩ := hsame.2 _ hlen hlen'
  rw [hget] at e1 e2
  refine ⟨n'.objects[pre.length], ?_, e2⟩
  have hsplit : n'.objects = n'.objects.take pre.length ++ n'.objects[pre.length] ::
      n'.objects.drop (pre.length + 1) := by
    rw [← List.drop_eq_getElem_cons hlen', List.take_append_drop]
  conv => lhs; rw [hsplit]
  refine findObject_append ?_ (e1.trans hc)
  intro o hm
  obtain ⟨i, hi, rfl⟩ := List.mem_iff_getElem.mp hm
  rw [List.getElem_take]
  have hi' : i < pre.length := by simp at hi; omega
  rw [(hsame.2 i (by omega) (by omega)).1]
  have : n.objects[i]'(by omega) = pre[i] := by
    simp only [ho]; rw [List.getElem_append_left hi']
  rw [this]
  exact hpre _ (List.getElem_mem hi')

/-- C34 is false with write-read requests: if the node profile has any writable property (the standard
node profile has, see `C34_fails_standard`), a single 0x6E request from the network changes it, although
only the built-in handler is registered. -/
theorem C34_write_read_fails (b : Build) (ω : HashOrder) (ok : Nat → Bool) (n n' : Node S) (msg : Message)
    (outs : List Out) (pre post : List Object) (np : Object) (ht : Targets n msg pre np post)
    (hnp : msg.deoj = nodeProfileCode) (hk : KeysOk np) (hh : n.handlers = [nodeHandler]) (c : UInt8)
    (p : Property) (hp : np.properties c = some p) (hw : p.writeAttr ≠ .Prohibited) (d : List UInt8)
    (hd : p.capacity = 0 ∨ d.length ≤ p.capacity) (h6 : msg.esvByte = 0x6E) (hps : msg.properties = [])
    (hset : msg.setProperties = [⟨c, d⟩]) (hget : msg.getProperties = [])
    (h : n.observe b ω ok msg = .ok (n', outs)) :
    ∃ np' p', n'.objects = pre ++ np' :: post ∧ np'.properties c = some p' ∧ p'.data = d := by
  have ha : Allowed np msg := by
    unfold Allowed writesOf readsOf
    rw [h6, hset, hget]
    refine ⟨?_, by simp⟩
    intro w hw'
    simp at hw'
    subst hw'
    exact ⟨p, hp, hw, hd⟩
  obtain ⟨_, dst', ho, hdd⟩ := C33_write_read_bypasses_handlers b ω ok n n' msg outs pre post np ht hk h6 hps ha
    (by rw [hh]; intro h' hm; rw [List.mem_singleton.mp hm]; exact nodeHandler_passive) h
  obtain ⟨p', h1, h2⟩ := hdd c d (by rw [hset]; simp [lastWrite])
  exact ⟨dst', p', ho, h1, h2⟩

/-- A node with a node profile that has a readable and writable property 0x80, built-in handler only. -/
def exProfileNode : Res (Node Unit) := do
  let o ← exObject [0x80, 0x9F]
  pure ⟨exTransport, [o.setCode nodeProfileCode], 5, none, 0, [nodeHandler], [.node], ()⟩

/-- A plain write is refused, a read is answered, and a write-read request changes the profile. -/
example : ∃ n, exProfileNode = .ok n ∧
    (∃ r, n.observe .dev .ascending allOk (((exRequest .WriteRequestResponseRequired 7).setDeoj
      nodeProfileCode).addProperty ⟨0x80, [0x41]⟩) = .ok r ∧
      (replies r.2).map (fun u => u.esvByte) = [0x51]) ∧
    (∃ r, n.observe .dev .ascending allOk (((exRequest .ReadRequest 7).setDeoj
      nodeProfileCode).addProperty ⟨0x80, [0x41]⟩) = .ok r ∧
      (replies r.2).map (fun u => u.esvByte) = [0x72]) ∧
    ∃ r, n.observe .dev .ascending allOk (((exRequest .WriteReadRequest 7).setDeoj
      nodeProfileCode).addPropertySet ⟨0x80, [0x41]⟩) = .ok r ∧
      r.1.property nodeProfileCode 0x80 = some [0x41] := by
  refine ⟨_, rfl, ⟨_, rfl, ?_⟩, ⟨_, rfl, ?_⟩, _, rfl, ?_⟩ <;> decide +kernel

/-! ## C36 -/

/-- C36: processing one message gives the transport at most one message. For a notification service
(0x73, 0x7A) it is multicast on the multicast interfaces in order (all of them, unless a send fails); any
other reply is sent at most once, by a unicast server, to port 3610 of the sender's IP address. Without a
reply nothing is transmitted; and only requests are replied to. -/
theorem C36_one_routed_reply (b : Build) (ω : HashOrder) (ok : Nat → Bool) (n n' : Node S) (msg : Message)
    (outs : List Out) (hk : ∀ o ∈ n.objects, KeysOk o) (h : n.observe b ω ok msg = .ok (n', outs)) :
    (replies outs = [] ∧ txs outs = []) ∨
    ∃ u, replies outs = [u] ∧ isRequestByte msg.esvByte = true ∧
      ((u.esvByte = 0x73 ∨ u.esvByte = 0x7A) →
        ∃ k, txs outs = (n.transport.mcast.take k).map
          (fun s => ⟨s.ifaddr, multicastAddr, u.bytes⟩)) ∧
      (u.esvByte ≠ 0x73 → u.esvByte ≠ 0x7A → (txs outs).length ≤ 1 ∧
        ∀ t ∈ txs outs, t.to = ⟨msg.sender.ip, 3610⟩ ∧ t.bytes = u.bytes ∧
          ∃ s ∈ n.transport.ucast, t.iface = s.ifaddr) := by
  cases hrep : replies outs with
  | nil =>
    left
    refine ⟨rfl, ?_⟩
    cases htx : txs outs with
    | nil => rfl
    | cons t ts =>
      obtain ⟨u, hu⟩ := mem_txs_reply h (t := t) (by rw [htx]; simp)
      rw [hrep] at hu; simp at hu
  | cons u us =>
    right
    have hu : u ∈ replies outs := by rw [hrep]; simp
    obtain ⟨hr, h1, _, _, svc, hh, htxs, hc⟩ := Node.reply_cases hk h hu
    refine ⟨u, by rw [← hrep, h1], hr, ?_, ?_⟩
    · intro hs
      have : isNotificationByte svc = true := by
        rw [← hh.esv]; unfold isNotificationByte; rcases hs with e | e <;> rw [e] <;> rfl
      rw [this, if_pos rfl] at htxs
      obtain ⟨k, hk1, _⟩ := Manager.notify_cases ok n.transport u
      exact ⟨k, by rw [htxs, hk1]⟩
    · intro h73 h7A
      have : isNotificationByte svc = false := by
        rw [← hh.esv]; simp [isNotificationByte, h73, h7A]
      rw [this, if_neg (by simp)] at htxs
      rcases Manager.send_cases ok n.transport ⟨msg.sender.ip, port⟩ u with ⟨_, h0⟩ | ⟨_, s, hs, h0⟩
      · rw [htxs, h0]; simp
      · rw [htxs, h0]
        refine ⟨by simp, fun t ht => ?_⟩
        simp at ht
        subst ht
        exact ⟨rfl, rfl, s, hs, rfl⟩

/-- C36: if all sends succeed and the transport is running, the reply is really transmitted: once to the
sender, or once per multicast interface. -/
theorem C36_reply_transmitted (b : Build) (ω : HashOrder) (n n' : Node S) (msg : Message)
    (outs : List Out) (hk : ∀ o ∈ n.objects, KeysOk o) (hrun : n.isRunning = true)
    (h : n.observe b ω allOk msg = .ok (n', outs)) (u : Message) (hu : u ∈ replies outs) :
    (txs outs).length = if u.esvByte = 0x73 ∨ u.esvByte = 0x7A then n.transport.mcast.length else 1 := by
  obtain ⟨hr, h1, _, _, svc, hh, htxs, hc⟩ := Node.reply_cases hk h hu
  have hnot : isNotificationByte svc = true ↔ (u.esvByte = 0x73 ∨ u.esvByte = 0x7A) := by
    rw [hh.esv]; simp [isNotificationByte]
  rw [htxs]
  split
  · rename_i hs
    rw [if_pos (hnot.mp hs)]
    unfold Manager.notify
    generalize 0 = i
    generalize n.transport.mcast = ss
    induction ss generalizing i with
    | nil => rfl
    | cons s ss ih => simp only [Manager.notifyLoop, allOk]; simpa using ih (i + 1)
  · rename_i hs
    rw [if_neg (fun hx => hs (hnot.mpr hx))]
    unfold Manager.send
    have hne : n.transport.ucast ≠ [] := by
      intro he
      simp [Node.isRunning, Manager.isRunning, he] at hrun
    cases hu : n.transport.ucast with
    | nil => exact absurd hu hne
    | cons s ss => simp [Manager.sendLoop, allOk]

example : ∃ n, exNode [acceptAll] = .ok n ∧ n.isRunning = true ∧
    (∃ r, n.observe .dev .ascending allOk ((exRequest .ReadRequest 7).addProperty ⟨0x80, []⟩) = .ok r ∧
      (txs r.2).map (fun t => (t.iface, t.to)) = [(.v4 0xC0A80002, ⟨.v4 0xC0A80009, 3610⟩)]) ∧
    (∃ r, n.observe .dev .ascending allOk ((exRequest .NotificationRequest 7).addProperty ⟨0x80, []⟩) = .ok r ∧
      (txs r.2).map (fun t => (t.iface, t.to)) =
        [(.v4 0xC0A80002, multicastAddr), (.v4 0x0A000001, multicastAddr)]) := by
  refine ⟨_, rfl, rfl, ⟨_, rfl, ?_⟩, ⟨_, rfl, ?_⟩⟩ <;> decide +kernel

end Uecho
