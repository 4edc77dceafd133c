import Verif.Spec.Exchange
import Verif.Props.NetworkDiscovery
/-!
# Requests and answers on a network: C76
-/
namespace Uecho
open Spec
variable {S : Type}

/-! ## Headers on the wire -/

theorem wire_frame {bs rest : List UInt8} {f : Frame} (hv : f.Valid) (h : bs.take 1024 = f.encode ++ rest) :
    wireTid bs = f.tid ∧ wireSeoj bs = f.seoj ∧ wireDeoj bs = f.deoj ∧ bs[10]? = some f.esv := by
  obtain ⟨v1, v2, v3, _⟩ := hv
  have key : ∃ t, bs = [0x10, 0x81] ++ be 2 f.tid ++ be 3 f.seoj ++ be 3 f.deoj ++ [f.esv] ++ t := by
    refine ⟨f.body.encode ++ rest ++ bs.drop 1024, ?_⟩
    have : bs = bs.take 1024 ++ bs.drop 1024 := (List.take_append_drop _ _).symm
    rw [h] at this
    conv => lhs; rw [this]
    unfold Frame.encode
    simp only [List.append_assoc]
  obtain ⟨t, rfl⟩ := key
  have l2 := be_length 2 f.tid
  have l3 := be_length 3 f.seoj
  have l3' := be_length 3 f.deoj
  have b2 := beVal_be 2 f.tid
  have b3 := beVal_be 3 f.seoj
  have b3' := beVal_be 3 f.deoj
  rw [Nat.mod_eq_of_lt (by simpa using v1)] at b2
  rw [Nat.mod_eq_of_lt (by simpa using v2)] at b3
  rw [Nat.mod_eq_of_lt (by simpa using v3)] at b3'
  generalize be 2 f.tid = x at l2 b2
  generalize be 3 f.seoj = y at l3 b3
  generalize be 3 f.deoj = z at l3' b3'
  match x, y, z, l2, l3, l3' with
  | [_, _], [_, _, _], [_, _, _], _, _, _ => exact ⟨b2, b3, b3', rfl⟩

theorem wire_bytes (u : Message) : wireTid u.bytes = u.tid.toNat ∧ wireSeoj u.bytes = u.seoj.toNat ∧
    wireDeoj u.bytes = u.deoj.toNat ∧ u.bytes[10]? = some u.esvByte := by
  obtain ⟨t, ht⟩ := bytes_header u
  refine ⟨?_, ?_, ?_, bytes_esv u⟩
  · rw [tid_toNat, ht]
    simp [wireTid, beVal]
  · rw [Message.seoj, objectCode_toNat, ht]
    simp [wireSeoj, beVal]
    omega
  · rw [Message.deoj, objectCode_toNat, ht]
    simp [wireDeoj, beVal]
    omega

/-- What a receiver thread hands over. -/
theorem reads_received {bytes : List UInt8} {m : Message}
    (h : Message.parse Message.new (bytes.take maxPacketSize) = .ok (true, m.setFrom Message.new.sender)) :
    Reads m bytes ∧ (frameOf m).Valid ∧ m.isFormat1 = true ∧ SizesOk m := by
  have hm : frameOf (m.setFrom Message.new.sender) = frameOf m := rfl
  obtain ⟨f, rest, hv, hd, hf, h2, h3, h4, h5, _, h7⟩ := Message.parse_sound _ _ _ h
  have hfr : frameOf m = f := by
    rw [← hm]
    unfold frameOf
    have hb : (if isWriteReadByte (m.setFrom Message.new.sender).esvByte then
        Body.setGet (m.setFrom Message.new.sender).setProperties (m.setFrom Message.new.sender).getProperties
        else Body.single (m.setFrom Message.new.sender).properties) = f.body := by
      obtain ⟨_, _, _, hv⟩ := hv
      rw [h5]
      cases hb : f.body with
      | single ps =>
        rw [hb] at hv h7
        simp only [] at hv h7
        rw [hv.1, h7.1]; rfl
      | setGet s g =>
        rw [hb] at hv h7
        simp only [] at hv h7
        rw [hv.1, h7.2.1, h7.2.2]; rfl
    rw [hb, h2, h3, h4, h5]
  refine ⟨⟨rest, by rw [hfr]; exact hd⟩, by rw [hfr]; exact hv, hf, ?_⟩
  have hempty : InRange [] := ⟨by simp, by simp⟩
  obtain ⟨_, _, _, hv⟩ := hv
  cases hb : f.body with
  | single ps =>
    rw [hb] at hv h7
    have h7' : m.properties = [] ++ ps ∧ m.setProperties = [] ∧ m.getProperties = [] := h7
    unfold SizesOk
    rw [h7'.1, h7'.2.1, h7'.2.2, List.nil_append]
    exact ⟨hv.2, hempty, hempty⟩
  | setGet s g =>
    rw [hb] at hv h7
    have h7' : m.properties = [] ∧ m.setProperties = [] ++ s ∧ m.getProperties = [] ++ g := h7
    unfold SizesOk
    rw [h7'.1, h7'.2.1, h7'.2.2, List.nil_append, List.nil_append]
    exact ⟨hempty, hv.2.1, hv.2.2⟩

theorem clone_frame {m m' : Message} (hf : m.isFormat1 = true) (hs : SizesOk m) (h : m.clone = .ok m') :
    frameOf m' = frameOf m := by
  by_cases h5 : m.esvByte = 0x5E
  · rw [C07_clone_panics_for_0x5E m hf hs h5] at h; simp at h
  · obtain ⟨m'', h1, _, _, _, _, h2, _⟩ := C07_clone_partial m hf hs h5
    rw [h1] at h
    simp only [Res.ok.injEq] at h
    rw [← h]; exact h2

/-! ## What one operation puts out -/

theorem readLoop_header {o : Object} {add : Message → WProperty → Message} {ps : List WProperty} {res m : Message}
    {t : UInt16} {sj dj : UInt32} {svc : UInt8}
    (hadd : ∀ r p, HasHeader r t sj dj svc → HasHeader (add r p) t sj dj svc) (hres : HasHeader res t sj dj svc)
    (h : o.readLoop add res ps = some m) : HasHeader m t sj dj svc := by
  induction ps generalizing res with
  | nil => simp only [Object.readLoop, Option.some.injEq] at h; rw [← h]; exact hres
  | cons p ps ih =>
    simp only [Object.readLoop] at h
    split at h
    · simp at h
    · exact ih (hadd _ _ hres) h

theorem ackLoop_header {add : Message → WProperty → Message} {ps : List WProperty} {res : Message}
    {t : UInt16} {sj dj : UInt32} {svc : UInt8}
    (hadd : ∀ r p, HasHeader r t sj dj svc → HasHeader (add r p) t sj dj svc) (hres : HasHeader res t sj dj svc) :
    HasHeader (ackLoop add res ps) t sj dj svc := by
  unfold ackLoop
  induction ps generalizing res with
  | nil => exact hres
  | cons p ps ih => exact ih (hadd _ _ hres)

theorem responseMessage_header (req : Message) :
    HasHeader (responseMessage req) req.tid req.deoj req.seoj (responseEsv req.esv).toU8 := by
  have h := replyHeader_facts req (responseEsv req.esv).toU8
  have : responseMessage req = replyHeader req (responseEsv req.esv).toU8 := rfl
  rw [this]
  exact ⟨h.1, h.2.1, h.2.2.1, h.2.2.2.1, h.2.2.2.2⟩

/-- The header of a reply, for any object. -/
theorem messageReceived_header {o : Object} {req u : Message} (hr : isRequestByte req.esvByte = true)
    (h : o.messageReceived req = some u) : ∃ svc, HasHeader u req.tid req.deoj req.seoj svc ∧
      (successByte req.esvByte = some svc ∨ svc = errorByte req.esvByte) := by
  have a1 : ∀ (t : UInt16) (sj dj : UInt32) (svc : UInt8) r p, HasHeader r t sj dj svc →
      HasHeader (Message.addProperty r p) t sj dj svc := fun _ _ _ _ _ _ h => ⟨h.tid, h.seoj, h.deoj, h.esv, h.fmt⟩
  have a2 : ∀ (t : UInt16) (sj dj : UInt32) (svc : UInt8) r p, HasHeader r t sj dj svc →
      HasHeader (Message.addPropertySet r p) t sj dj svc := fun _ _ _ _ _ _ h => ⟨h.tid, h.seoj, h.deoj, h.esv, h.fmt⟩
  have a3 : ∀ (t : UInt16) (sj dj : UInt32) (svc : UInt8) r p, HasHeader r t sj dj svc →
      HasHeader (Message.addPropertyGet r p) t sj dj svc := fun _ _ _ _ _ _ h => ⟨h.tid, h.seoj, h.deoj, h.esv, h.fmt⟩
  have hsucc : ∀ e : UInt8, (ESV.fromU8 e = .WriteRequestResponseRequired ∨ ESV.fromU8 e = .NotificationResponseRequired ∨
      ESV.fromU8 e = .ReadRequest ∨ ESV.fromU8 e = .NotificationRequest ∨ ESV.fromU8 e = .WriteReadRequest) →
      successByte e = some (responseEsv (ESV.fromU8 e)).toU8 := by decide +kernel
  have herr := errorMessage_header req hr
  have hres := responseMessage_header req
  have hs := hsucc req.esvByte
  unfold Object.messageReceived at h
  simp only [] at h
  split at h
  · rename_i he
    simp only [Option.some.injEq] at h
    exact ⟨_, by rw [← h]; exact ackLoop_header (a1 _ _ _ _) hres, Or.inl (hs (Or.inl he))⟩
  · rename_i he
    simp only [Option.some.injEq] at h
    exact ⟨_, by rw [← h]; exact ackLoop_header (a1 _ _ _ _) hres, Or.inl (hs (Or.inr (Or.inl he)))⟩
  · rename_i he
    split at h
    · simp only [Option.some.injEq] at h
      exact ⟨_, by rw [← h]; exact herr, Or.inr rfl⟩
    · rename_i hl
      simp only [Option.some.injEq] at h
      exact ⟨_, by rw [← h]; exact readLoop_header (a1 _ _ _ _) hres hl, Or.inl (hs (Or.inr (Or.inr (Or.inl he))))⟩
  · rename_i he
    split at h
    · simp only [Option.some.injEq] at h
      exact ⟨_, by rw [← h]; exact herr, Or.inr rfl⟩
    · rename_i hl
      simp only [Option.some.injEq] at h
      exact ⟨_, by rw [← h]; exact readLoop_header (a1 _ _ _ _) hres hl,
        Or.inl (hs (Or.inr (Or.inr (Or.inr (Or.inl he)))))⟩
  · rename_i he
    split at h
    · simp only [Option.some.injEq] at h
      exact ⟨_, by rw [← h]; exact herr, Or.inr rfl⟩
    · rename_i hl
      simp only [Option.some.injEq] at h
      exact ⟨_, by rw [← h]; exact readLoop_header (a3 _ _ _ _) (ackLoop_header (a2 _ _ _ _) hres) hl,
        Or.inl (hs (Or.inr (Or.inr (Or.inr (Or.inr he)))))⟩
  · simp at h

/-- What a node puts out while observing a message it read in the datagram `r`. -/
theorem observe_answers {b : Build} {ω : HashOrder} {ok : Nat → Bool} {n n' : Node S} {msg : Message} {outs : List Out}
    (h : n.observe b ω ok msg = .ok (n', outs)) {r : Tx} (hr : Reads msg r.bytes) (hv : (frameOf msg).Valid)
    (hs : msg.sender.ip = r.iface) {t : Tx} (ht : t ∈ txs outs)
    (ha : ∃ e, t.bytes[10]? = some e ∧ isAnswerByte e = true) : Answers t r := by
  cases hreq : isRequestByte msg.esvByte with
  | false => rw [(Node.observe_nonrequest hreq h).2.1] at ht; simp at ht
  | true =>
    obtain ⟨rest, hrest⟩ := hr
    obtain ⟨w1, w2, w3, w4⟩ := wire_frame hv hrest
    have hout : ∀ {res : Message} {n₁ : Node S}, Node.Outcome b ω n msg (some res) n₁ →
        ∃ svc, HasHeader res msg.tid msg.deoj msg.seoj svc ∧
          (successByte msg.esvByte = some svc ∨ svc = errorByte msg.esvByte) := by
      intro res n₁ ho
      generalize hx : some res = x at ho
      cases ho with
      | silent _ => simp at hx
      | invalid => simp only [Option.some.injEq] at hx; rw [hx]; exact ⟨_, errorMessage_header msg hreq, Or.inr rfl⟩
      | refused => simp only [Option.some.injEq] at hx; rw [hx]; exact ⟨_, errorMessage_header msg hreq, Or.inr rfl⟩
      | accepted => exact messageReceived_header hreq hx.symm
    obtain ⟨x, n₁, ho, hc⟩ := Node.observe_request hreq h
    rcases hc with ⟨_, _, rfl⟩ | ⟨res, rfl, h1, h2⟩
    · simp [txs] at ht
    · obtain ⟨svc, hh, hsvc⟩ := hout ho
      have hresp : isResponseByte res.esvByte = true := by
        rw [hh.esv]
        rcases hsvc with h | h
        · exact successByte_response _ _ h
        · rw [h]; exact errorByte_response _
      obtain ⟨_, rfl⟩ := h1 hresp
      rw [txs_handed_cons] at ht
      have hb := transmit_bytes ok n₁ msg res t ht
      have hh' := (updateTid_header n₁ msg res svc hh).1
      obtain ⟨g1, g2, g3, g4⟩ := wire_bytes (n₁.updateTid res).1
      rw [← hb] at g1 g2 g3 g4
      have hnot : isNotificationByte res.esvByte = false := by
        obtain ⟨e, he, hae⟩ := ha
        rw [g4, Option.some.injEq] at he
        rw [hh.esv, ← hh'.esv, he]
        unfold isAnswerByte at hae
        simpa using (by simpa using hae : _ ∧ _).2
      unfold Node.transmit at ht
      rw [hnot] at ht
      simp only [Bool.false_eq_true, if_false] at ht
      refine ⟨?_, ?_, ?_, ?_, ?_⟩
      · rcases Manager.send_cases ok n₁.transport ⟨msg.sender.ip, port⟩ (n₁.updateTid res).1 with ⟨_, h0⟩ | ⟨_, s, _, h0⟩
        · rw [h0] at ht; simp at ht
        · rw [h0] at ht
          simp only [List.mem_cons, List.not_mem_nil, or_false] at ht
          rw [ht]; exact hs
      · intro hne
        rw [g1, hh'.tid, w1]
        rw [w1] at hne
        rw [if_neg (by intro h0; apply hne; show msg.tid.toNat = 0; rw [h0]; rfl)]
        rfl
      · rw [g2, hh'.seoj, w3]; rfl
      · rw [g3, hh'.deoj, w2]; rfl
      · refine ⟨msg.esvByte, w4, hreq, ?_⟩
        rw [g4, hh'.esv]
        rcases hsvc with h | h
        · exact Or.inl h.symm
        · exact Or.inr (by rw [h])

/-- What an operation by the application of host `i` may put out. -/
def ApiPuts (own : IpAddr → Option Nat) (i : Nat) (plain : Prop) (m : Manager) (outs : List Out) : Prop :=
  Owned own i m ∧ (∀ t ∈ txs outs, own t.iface = some i) ∧
  (plain → ∀ t ∈ txs outs, ∃ e, t.bytes[10]? = some e ∧ isAnswerByte e = false)

theorem apiPuts_nothing {own : IpAddr → Option Nat} {i : Nat} {plain : Prop} {m : Manager} (h : Owned own i m) :
    ApiPuts own i plain m [] := ⟨h, by simp [txs], by simp [txs]⟩

theorem apiPuts_unicast {own : IpAddr → Option Nat} {i : Nat} {plain : Prop} {m : Manager} (h : Owned own i m)
    (ok : Nat → Bool) (to : SocketAddr) (k : Node S) (msg : Message) (hp : plain → isAnswerByte msg.esvByte = false) :
    ApiPuts own i plain m (.handed msg (k.updateTid msg).1 :: ((m.send ok to (k.updateTid msg).1).2).map .tx) := by
  refine ⟨h, ?_, ?_⟩
  · intro t ht
    rw [txs_handed_cons] at ht
    rcases Manager.send_cases ok m to (k.updateTid msg).1 with ⟨_, h0⟩ | ⟨_, s, hs, h0⟩
    · rw [h0] at ht; simp at ht
    · rw [h0] at ht
      simp only [List.mem_cons, List.not_mem_nil, or_false] at ht
      subst ht
      exact h s (by simp [hs])
  · intro hpl t ht
    rw [txs_handed_cons] at ht
    refine ⟨msg.esvByte, ?_, hp hpl⟩
    rw [send_bytes _ _ _ _ t ht, bytes_esv, (updateTid_fields k msg).2.2.1]

theorem apiPuts_multicast {own : IpAddr → Option Nat} {i : Nat} {plain : Prop} {m : Manager} (h : Owned own i m)
    (ok : Nat → Bool) (k : Node S) (msg : Message) (hp : plain → isAnswerByte msg.esvByte = false) :
    ApiPuts own i plain m (.handed msg (k.updateTid msg).1 :: ((m.notify ok (k.updateTid msg).1).2).map .tx) := by
  refine ⟨h, ?_, ?_⟩
  · intro t ht
    rw [txs_handed_cons] at ht
    obtain ⟨j, h0, _⟩ := Manager.notify_cases ok m (k.updateTid msg).1
    rw [h0] at ht
    obtain ⟨s, hs, rfl⟩ := List.mem_map.mp ht
    exact h s (by simp [List.mem_of_mem_take hs])
  · intro hpl t ht
    rw [txs_handed_cons] at ht
    refine ⟨msg.esvByte, ?_, hp hpl⟩
    rw [notify_bytes _ _ _ t ht, bytes_esv, (updateTid_fields k msg).2.2.1]

theorem apiPuts_announce {own : IpAddr → Option Nat} {i : Nat} {plain : Prop} {n : Node S} (h : Owned own i n.transport)
    (ok : Nat → Bool) : ApiPuts own i plain (n.announce ok).2.1.transport (n.announce ok).2.2 := by
  unfold Node.announce
  split
  · exact apiPuts_nothing h
  · split
    · exact apiPuts_nothing h
    · simp only [Node.notify, Node.updateTid_transport]
      exact apiPuts_multicast h ok n _ (fun _ => (by decide : isAnswerByte 0x73 = false))

/-- A call on a node by the application of host `i`. -/
theorem node_api_puts {own : IpAddr → Option Nat} {i : Nat} {b : Build} {n n' : Node S} {op : Op S} {outs : List Out}
    (how : Owned own i n.transport) (ha : Net.IsApi (.node op)) (hop : OwnInterfaces own i (.node op))
    (h : n.step b op = .ok (n', outs)) :
    ApiPuts own i (NoAnswers (.node op)) n'.transport outs ∧ deliveries outs = [] := by
  constructor
  rotate_left
  · rcases step_post h with ⟨_, _, _, _, _, _, h0⟩ | ⟨_, _, h0⟩ | ⟨_, _, _, _, rfl, _⟩
    · exact h0
    · exact h0
    · exact ha.elim
  cases op with
  | addObject o =>
    obtain ⟨r, hr, h⟩ := Res.bind_eq_ok.mp h
    simp only [Res.pure_eq, Res.ok.injEq, Prod.mk.injEq] at h
    rw [← h.1, ← h.2, addObject_frame hr]; exact apiPuts_nothing how
  | addHandler _ =>
    simp only [Node.step, Res.ok.injEq, Prod.mk.injEq] at h; rw [← h.1, ← h.2]; exact apiPuts_nothing how
  | addObserver _ =>
    simp only [Node.step, Res.ok.injEq, Prod.mk.injEq] at h; rw [← h.1, ← h.2]; exact apiPuts_nothing how
  | send to msg ok =>
    simp only [Node.step, Node.sendMessage, Res.ok.injEq, Prod.mk.injEq] at h
    rw [← h.1, ← h.2, Node.updateTid_transport]
    exact apiPuts_unicast how ok to n msg id
  | post to msg ok =>
    simp only [Node.step, Node.postMessage, Res.ok.injEq, Prod.mk.injEq] at h
    rw [← h.1, ← h.2]
    simp only [Node.updateTid_transport]
    exact apiPuts_unicast how ok to n msg id
  | notify msg ok =>
    simp only [Node.step, Node.notify, Res.ok.injEq, Prod.mk.injEq] at h
    rw [← h.1, ← h.2, Node.updateTid_transport]
    exact apiPuts_multicast how ok n msg id
  | announceProperty obj prop ok =>
    simp only [Node.step, Node.announceProperty, Node.notify, Res.ok.injEq, Prod.mk.injEq] at h
    rw [← h.1, ← h.2, Node.updateTid_transport]
    exact apiPuts_multicast how ok n _ (fun _ => (by decide : isAnswerByte 0x73 = false))
  | announce ok =>
    simp only [Node.step, Res.ok.injEq, Prod.mk.injEq] at h
    rw [← h.1, ← h.2]
    exact apiPuts_announce how ok
  | start menv uenv ok =>
    obtain ⟨r, hr, h⟩ := Res.bind_eq_ok.mp h
    simp only [Res.pure_eq, Res.ok.injEq, Prod.mk.injEq] at h
    rw [← h.1, ← h.2]
    unfold Node.start at hr
    obtain ⟨x, hx, hr⟩ := Res.bind_eq_ok.mp hr
    have hx' : Owned own i x.2 := start_owned (r := x.1) hop how hx
    simp only [] at hr
    split at hr
    · simp only [Res.pure_eq, Res.ok.injEq] at hr
      rw [← hr]; exact apiPuts_nothing hx'
    · split at hr <;>
      · simp only [Res.pure_eq, Res.ok.injEq] at hr
        rw [← hr]
        exact apiPuts_announce (addObservers_owned hx' _) ok
  | stop =>
    obtain ⟨r, hr, h⟩ := Res.bind_eq_ok.mp h
    simp only [Res.pure_eq, Res.ok.injEq, Prod.mk.injEq] at h
    rw [← h.1, ← h.2]
    unfold Node.stop at hr
    obtain ⟨x, hx, hr⟩ := Res.bind_eq_ok.mp hr
    have hx' : x.2 = ⟨[], []⟩ := by
      unfold Manager.stop at hx
      obtain ⟨_, _, hx⟩ := Res.bind_eq_ok.mp hx
      obtain ⟨_, _, hx⟩ := Res.bind_eq_ok.mp hx
      simp only [Res.pure_eq, Res.ok.injEq] at hx
      rw [← hx]
    split at hr <;>
    · simp only [Res.pure_eq, Res.ok.injEq] at hr
      rw [← hr]; simp only [hx']; exact apiPuts_nothing (owned_nil _ _)
  | setProperty oc c d =>
    simp only [Node.step, Res.ok.injEq, Prod.mk.injEq] at h
    rw [← h.1, ← h.2, setProperty_frame]; exact apiPuts_nothing how
  | edit oc f => simp only [Node.step, Res.ok.injEq, Prod.mk.injEq] at h; rw [← h.1, ← h.2]; exact apiPuts_nothing how
  | receive msg free ω ok => exact ha.elim

/-- A call on a host by its application is a call on its node, or nothing. -/
theorem host_api {own : IpAddr → Option Nat} {i : Nat} {b : Build} {db : Database} {h h' : Host S} {op : HostOp S}
    {outs : List Out} (ha : Net.IsApi op) (hop : OwnInterfaces own i op) (hs : h.step b db op = .ok (h', outs)) :
    (h'.node = h.node ∧ outs = []) ∨
      ∃ nop, Net.IsApi (.node nop) ∧ OwnInterfaces own i (.node nop) ∧ (NoAnswers op → NoAnswers (.node nop)) ∧
        h.node.step b nop = .ok (h'.node, outs) ∧
        (op = .node nop ∨ (∀ o, nop ≠ .addObject o) ∧ ∀ oc f, nop ≠ .edit oc f) := by
  cases op with
  | call o e m => exact ha.elim
  | node op =>
    obtain ⟨r, hr, hs⟩ := Res.bind_eq_ok.mp hs
    simp only [Res.pure_eq, Res.ok.injEq, Prod.mk.injEq] at hs
    obtain ⟨rfl, rfl⟩ := hs
    exact Or.inr ⟨op, ha, hop, id, hr, Or.inl rfl⟩
  | search code ok =>
    simp only [Host.step, Res.ok.injEq] at hs
    have h1 : h' = (h.searchObject ok code).2.1 := by rw [hs]
    have h2 : outs = (h.searchObject ok code).2.2 := by rw [hs]
    subst h1 h2
    exact Or.inr ⟨.notify ((searchMessage.setSeoj nodeProfileCode).setDeoj code) ok, trivial, trivial,
      fun _ => (by decide : isAnswerByte 0x62 = false), rfl, Or.inr ⟨nofun, nofun⟩⟩
  | send r m free ok =>
    simp only [Host.step, Res.ok.injEq, Host.sendMessage] at hs
    cases free with
    | false =>
      simp only [Bool.not_false, if_true, Prod.mk.injEq] at hs
      obtain ⟨rfl, rfl⟩ := hs
      exact Or.inl ⟨rfl, rfl⟩
    | true =>
      simp only [Bool.not_true, Bool.false_eq_true, if_false, Prod.mk.injEq] at hs
      obtain ⟨rfl, rfl⟩ := hs
      exact Or.inr ⟨.send ⟨r.addr.ip, port⟩ (m.setSeoj nodeProfileCode) ok, trivial, trivial, id, rfl, Or.inr ⟨nofun, nofun⟩⟩
  | post r m ok =>
    simp only [Host.step, Res.ok.injEq, Host.postMessage, Prod.mk.injEq] at hs
    obtain ⟨rfl, rfl⟩ := hs
    exact Or.inr ⟨.post ⟨r.addr.ip, port⟩ (m.setSeoj nodeProfileCode) ok, trivial, trivial, id, rfl, Or.inr ⟨nofun, nofun⟩⟩
  | start menv uenv ok =>
    obtain ⟨x, hx, hs⟩ := Res.bind_eq_ok.mp hs
    simp only [Res.pure_eq, Res.ok.injEq] at hs
    unfold Host.start at hx
    obtain ⟨r, hr, hx⟩ := Res.bind_eq_ok.mp hx
    have hx' : x.2 = ({ h with node := r.2.1 }, r.2.2) := by
      split at hx <;>
      · simp only [Res.pure_eq, Res.ok.injEq] at hx; rw [← hx]
    rw [hx'] at hs
    simp only [Prod.mk.injEq] at hs
    obtain ⟨rfl, rfl⟩ := hs
    refine Or.inr ⟨.start menv uenv ok, trivial, hop, fun _ => trivial, ?_, Or.inr ⟨nofun, nofun⟩⟩
    simp only [Node.step, hr, Res.bind_ok, Res.pure_eq]
  | stop =>
    obtain ⟨x, hx, hs⟩ := Res.bind_eq_ok.mp hs
    simp only [Res.pure_eq, Res.ok.injEq, Prod.mk.injEq] at hs
    unfold Host.stop at hx
    obtain ⟨r, hr, hx⟩ := Res.bind_eq_ok.mp hx
    have hx' : x.2 = { h with node := r.2 } := by
      split at hx <;>
      · simp only [Res.pure_eq, Res.ok.injEq] at hx; rw [← hx]
    rw [hx'] at hs
    obtain ⟨rfl, rfl⟩ := hs
    refine Or.inr ⟨.stop, trivial, trivial, fun _ => trivial, ?_, Or.inr ⟨nofun, nofun⟩⟩
    simp only [Node.step, hr, Res.bind_ok, Res.pure_eq]

/-! ## The invariant -/

/-- Somebody sent these bytes from this address, and not to somebody else than host `h`. -/
def Sent (own : IpAddr → Option Nat) (tr : List (Nat × Out)) (bytes : List UInt8) (ip : IpAddr) (h : Nat) : Prop :=
  ∃ j t, (j, Out.tx t) ∈ tr ∧ t.bytes = bytes ∧ t.iface = ip ∧ ∀ k, own t.to.ip = some k → h = k

theorem Sent.mono {own : IpAddr → Option Nat} {tr : List (Nat × Out)} {bytes : List UInt8} {ip : IpAddr} {h : Nat}
    (hs : Sent own tr bytes ip h) (l : List (Nat × Out)) : Sent own (tr ++ l) bytes ip h := by
  obtain ⟨j, t, h1, h2⟩ := hs
  exact ⟨j, t, List.mem_append_left _ h1, h2⟩

/-- What holds at the end of a step with effects `outs` of host `i`, provided it held for `tr` before. -/
structure TraceInv (own : IpAddr → Option Nat) (plain : Prop) (n₀ : Net S) (tr : List (Nat × Out)) (n : Net S) : Prop where
  owned : ∀ i, Owned own i (n.hosts i).node.transport
  fly : ∀ p ∈ n.flying, Sent own tr p.bytes p.src.ip p.host
  busy : ∀ q ∈ n.busy, ∃ bytes, Sent own tr bytes q.msg.sender.ip q.host ∧ Reads q.msg bytes ∧ (frameOf q.msg).Valid ∧
    q.msg.isFormat1 = true ∧ SizesOk q.msg
  addr : ∀ j t, (j, Out.tx t) ∈ tr → own t.iface = some j
  answered : plain → ∀ p₁ p₂ j a, tr = p₁ ++ (j, Out.tx a) :: p₂ → (∃ e, a.bytes[10]? = some e ∧ isAnswerByte e = true) →
    ∃ i r, (i, Out.tx r) ∈ p₁ ∧ Answers a r
  delivered : ∀ p₁ p₂ i ch m, tr = p₁ ++ (i, Out.deliver ch m) :: p₂ → (frameOf m).Valid ∧
    (∃ j a, (j, Out.tx a) ∈ p₁ ∧ Reads m a.bytes ∧ ∀ k, own a.to.ip = some k → i = k) ∧
    m.tid = (n₀.hosts i).node.lastTid + UInt16.ofNat (autoTids (outsOf i p₁)).length ∧
    autoTids (outsOf i p₁) = (List.range (autoTids (outsOf i p₁)).length).map
      (fun k => (n₀.hosts i).node.lastTid + 1 + UInt16.ofNat k) ∧
    (∀ t, (i, Out.tx t) ∈ p₁ → ∃ g u, (g, u) ∈ handed (outsOf i p₁) ∧ t.bytes = u.bytes)
  tids : ∀ i, (n.hosts i).node.lastTid = (n₀.hosts i).node.lastTid + UInt16.ofNat (autoTids (outsOf i tr)).length ∧
    autoTids (outsOf i tr) = (List.range (autoTids (outsOf i tr)).length).map
      (fun k => (n₀.hosts i).node.lastTid + 1 + UInt16.ofNat k)
  source : ∀ i t, (i, Out.tx t) ∈ tr → ∃ g u, (g, u) ∈ handed (outsOf i tr) ∧ t.bytes = u.bytes

theorem split_append {α : Type} {l m p₁ p₂ : List α} {x : α} (h : l ++ m = p₁ ++ x :: p₂) :
    (∃ s, l = p₁ ++ x :: s) ∨ ∃ s s', p₁ = l ++ s ∧ m = s ++ x :: s' := by
  rcases List.append_eq_append_iff.mp h with ⟨s, h1, h2⟩ | ⟨s, h1, h2⟩
  · exact Or.inr ⟨s, p₂, h1, h2⟩
  · cases s with
    | nil =>
      simp only [List.append_nil, List.nil_append] at h1 h2
      exact Or.inr ⟨[], p₂, by simp [h1], by simp [← h2]⟩
    | cons y s =>
      simp only [List.cons_append, List.cons.injEq] at h2
      exact Or.inl ⟨s, by rw [h1, ← h2.1]⟩

theorem outsOf_append (i : Nat) (a b : List (Nat × Out)) : outsOf i (a ++ b) = outsOf i a ++ outsOf i b := by
  simp [outsOf]

theorem outsOf_same (i : Nat) (outs : List Out) : outsOf i (outs.map (fun o => (i, o))) = outs := by
  unfold outsOf
  induction outs with
  | nil => rfl
  | cons o os ih => simp only [List.map_cons, List.filter_cons, beq_self_eq_true, if_true]; rw [ih]

theorem outsOf_other {i j : Nat} (h : j ≠ i) (outs : List Out) : outsOf j (outs.map (fun o => (i, o))) = [] := by
  unfold outsOf
  induction outs with
  | nil => rfl
  | cons o os ih =>
    have : (i == j) = false := by simp; omega
    simp only [List.map_cons, List.filter_cons, this, Bool.false_eq_true, if_false]; exact ih

theorem mem_map_host {i j : Nat} {outs : List Out} {o : Out} : (j, o) ∈ outs.map (fun o => (i, o)) ↔ j = i ∧ o ∈ outs := by
  simp only [List.mem_map, Prod.mk.injEq]
  constructor
  · rintro ⟨x, hx, rfl, rfl⟩; exact ⟨rfl, hx⟩
  · rintro ⟨rfl, h⟩; exact ⟨o, h, rfl, rfl⟩

theorem mem_deliveries {outs : List Out} {ch : Nat} {m : Message} : Out.deliver ch m ∈ outs ↔ (ch, m) ∈ deliveries outs := by
  unfold deliveries
  rw [List.mem_filterMap]
  constructor
  · intro h; exact ⟨_, h, rfl⟩
  · rintro ⟨o, ho, h⟩
    cases o <;> simp at h
    obtain ⟨rfl, rfl⟩ := h
    exact ho

/-- The numbers given out by one step. -/
theorem emission_tids {n n' : Node S} {outs l : List Out} {t₀ : UInt16} (he : Emission n n' outs)
    (h1 : n.lastTid = t₀ + UInt16.ofNat (autoTids l).length)
    (h2 : autoTids l = (List.range (autoTids l).length).map (fun k => t₀ + 1 + UInt16.ofNat k)) :
    n'.lastTid = t₀ + UInt16.ofNat (autoTids (l ++ outs)).length ∧
    autoTids (l ++ outs) = (List.range (autoTids (l ++ outs)).length).map (fun k => t₀ + 1 + UInt16.ofNat k) := by
  rw [autoTids_append]
  rcases he with ⟨hh, _, ht⟩ | ⟨g, u, hh, _, hne, he⟩
  · have : autoTids outs = [] := by simp [autoTids, hh]
    rw [this, List.append_nil, ht]
    exact ⟨h1, h2⟩
  · by_cases hg : g.tid = 0
    · obtain ⟨rfl, ht⟩ := he hg
      have : autoTids outs = [n.lastTid + 1] := by simp [autoTids, hh, hg, setTid_tid]
      rw [this, List.length_append, List.length_singleton]
      constructor
      · rw [ht, h1, UInt16.ofNat_add, UInt16.add_assoc]; rfl
      · rw [List.range_succ, List.map_append, ← h2]
        simp only [List.map_cons, List.map_nil, List.append_cancel_left_eq, List.cons.injEq, and_true]
        rw [h1, UInt16.add_assoc, UInt16.add_comm (UInt16.ofNat _), ← UInt16.add_assoc]
    · obtain ⟨rfl, ht⟩ := hne hg
      have : autoTids outs = [] := by simp [autoTids, hh, hg]
      rw [this, List.append_nil, ht]
      exact ⟨h1, h2⟩

theorem TraceInv.step {own : IpAddr → Option Nat} {plain : Prop} {n₀ n n' : Net S} {tr : List (Nat × Out)} {i : Nat}
    {outs : List Out} (inv : TraceInv own plain n₀ tr n) (hr : Routed own n outs n')
    (hother : ∀ j, j ≠ i → (n'.hosts j).node = (n.hosts j).node) (hown : Owned own i (n'.hosts i).node.transport)
    (hbusy : ∀ q ∈ n'.busy, ∃ bytes, Sent own tr bytes q.msg.sender.ip q.host ∧ Reads q.msg bytes ∧
      (frameOf q.msg).Valid ∧ q.msg.isFormat1 = true ∧ SizesOk q.msg)
    (haddr : ∀ t ∈ txs outs, own t.iface = some i)
    (hans : plain → ∀ t ∈ txs outs, (∃ e, t.bytes[10]? = some e ∧ isAnswerByte e = true) →
      ∃ k r, (k, Out.tx r) ∈ tr ∧ Answers t r)
    (hdel : ∀ ch m, (ch, m) ∈ deliveries outs → (frameOf m).Valid ∧
      (∃ j a, (j, Out.tx a) ∈ tr ∧ Reads m a.bytes ∧ ∀ k, own a.to.ip = some k → i = k) ∧
      m.tid = (n.hosts i).node.lastTid ∧ handed outs = [] ∧ txs outs = [])
    (hem : Emission (n.hosts i).node (n'.hosts i).node outs) :
    TraceInv own plain n₀ (tr ++ outs.map (fun o => (i, o))) n' := by
  refine ⟨?_, ?_, ?_, ?_, ?_, ?_, ?_, ?_⟩
  · intro j
    by_cases h : j = i
    · subst h; exact hown
    · rw [hother j h]; exact inv.owned j
  · intro p hp
    rcases hr p hp with h | ⟨t, h1, h2, h3, h4⟩
    · exact (inv.fly p h).mono _
    · exact ⟨i, t, List.mem_append_right _ (mem_map_host.mpr ⟨rfl, h1⟩), h2.symm, h3.symm, h4⟩
  · intro q hq
    obtain ⟨bytes, h1, h2⟩ := hbusy q hq
    exact ⟨bytes, h1.mono _, h2⟩
  · intro j t h
    rcases List.mem_append.mp h with h | h
    · exact inv.addr j t h
    · obtain ⟨rfl, h'⟩ := mem_map_host.mp h
      exact haddr t (mem_txs.mp h')
  · intro hpl p₁ p₂ j a h ha
    rcases split_append h with ⟨s, h⟩ | ⟨s, s', h1, h2⟩
    · exact inv.answered hpl p₁ s j a h ha
    · have hm : (j, Out.tx a) ∈ outs.map (fun o => (i, o)) := by rw [h2]; simp
      obtain ⟨k, r, hr, hk⟩ := hans hpl a (mem_txs.mp (mem_map_host.mp hm).2) ha
      exact ⟨k, r, by rw [h1]; exact List.mem_append_left _ hr, hk⟩
  · intro p₁ p₂ j ch m h
    rcases split_append h with ⟨s, h⟩ | ⟨s, s', h1, h2⟩
    · exact inv.delivered p₁ s j ch m h
    · have hm : (j, Out.deliver ch m) ∈ outs.map (fun o => (i, o)) := by rw [h2]; simp
      obtain ⟨rfl, hm'⟩ := mem_map_host.mp hm
      obtain ⟨d1, ⟨j', a, d2, d3⟩, d4, d5, d6⟩ := hdel ch m (mem_deliveries.mp hm')
      obtain ⟨s₁, s₂, rfl, rfl, _⟩ := List.map_eq_append_iff.mp h2
      have hh : handed s₁ = [] := by
        rw [handed_append] at d5; exact (List.append_eq_nil_iff.mp d5).1
      have ht : autoTids (outsOf j p₁) = autoTids (outsOf j tr) := by
        rw [h1, outsOf_append, outsOf_same, autoTids_append]
        simp [autoTids, hh]
      refine ⟨d1, ⟨j', a, by rw [h1]; exact List.mem_append_left _ d2, d3⟩, ?_, ?_, ?_⟩
      · rw [d4, (inv.tids j).1, ht]
      · rw [ht]; exact (inv.tids j).2
      · intro t h
        rw [h1] at h
        rcases List.mem_append.mp h with h | h
        · obtain ⟨g, u, h3, h4⟩ := inv.source j t h
          exact ⟨g, u, by rw [h1, outsOf_append, handed_append]; exact List.mem_append_left _ h3, h4⟩
        · have := mem_txs.mp (mem_map_host.mp h).2
          rw [txs_append] at d6
          rw [(List.append_eq_nil_iff.mp d6).1] at this
          simp at this
  · intro j
    by_cases h : j = i
    · subst h
      rw [outsOf_append, outsOf_same]
      exact emission_tids hem (inv.tids j).1 (inv.tids j).2
    · rw [outsOf_append, outsOf_other h, List.append_nil, hother j h]
      exact inv.tids j
  · intro j t h
    rw [outsOf_append, handed_append]
    rcases List.mem_append.mp h with h | h
    · obtain ⟨g, u, h1, h2⟩ := inv.source j t h
      exact ⟨g, u, List.mem_append_left _ h1, h2⟩
    · obtain ⟨rfl, h'⟩ := mem_map_host.mp h
      rw [outsOf_same]
      rcases hem with ⟨_, h0, _⟩ | ⟨g, u, h1, h2, _⟩
      · have := mem_txs.mp h'; rw [h0] at this; simp at this
      · exact ⟨g, u, List.mem_append_right _ (by rw [h1]; simp), h2 t (mem_txs.mp h')⟩

theorem TraceInv.init {own : IpAddr → Option Nat} {plain : Prop} {n₀ : Net S} (h : AtRest own n₀) :
    TraceInv own plain n₀ [] n₀ := by
  refine ⟨h.own, ?_, ?_, ?_, ?_, ?_, ?_, ?_⟩
  · rw [h.flying]; simp
  · rw [h.busy]; simp
  · simp
  · intro _ p₁ p₂ j a h; simp at h
  · intro p₁ p₂ i ch m h; simp at h
  · intro i; simp [autoTids, handed, outsOf]
  · simp

/-- The effects of calling an observer on a message. -/
theorem TraceInv.observer {own : IpAddr → Option Nat} {plain : Prop} {n₀ n : Net S} {tr : List (Nat × Out)}
    (inv : TraceInv own plain n₀ tr n) {b : Build} {db : Database} {q : Busy} (hq : q ∈ n.busy) {e : CallEnv}
    {o : ObserverRef} {h' : Host S} {outs : List Out} (hi : (n.hosts q.host).invoke b db e q.msg o = .ok (h', outs)) :
    Owned own q.host h'.node.transport ∧ (∀ t ∈ txs outs, own t.iface = some q.host) ∧
    (∀ t ∈ txs outs, (∃ e, t.bytes[10]? = some e ∧ isAnswerByte e = true) → ∃ k r, (k, Out.tx r) ∈ tr ∧ Answers t r) ∧
    (∀ ch m, (ch, m) ∈ deliveries outs → (frameOf m).Valid ∧
      (∃ j a, (j, Out.tx a) ∈ tr ∧ Reads m a.bytes ∧ ∀ k, own a.to.ip = some k → q.host = k) ∧
      m.tid = (n.hosts q.host).node.lastTid ∧ handed outs = [] ∧ txs outs = []) ∧
    Emission (n.hosts q.host).node h'.node outs := by
  obtain ⟨bytes, ⟨j, r, hr, rfl, hip, hto⟩, hreads, hvalid, hfmt, hsz⟩ := inv.busy q hq
  have nothing : h'.node = (n.hosts q.host).node → outs = [] → _ := fun (h1 : h'.node = (n.hosts q.host).node) (h2 : outs = []) =>
    (show Owned own q.host h'.node.transport ∧ (∀ t ∈ txs outs, own t.iface = some q.host) ∧
    (∀ t ∈ txs outs, (∃ e, t.bytes[10]? = some e ∧ isAnswerByte e = true) → ∃ k r, (k, Out.tx r) ∈ tr ∧ Answers t r) ∧
    (∀ ch m, (ch, m) ∈ deliveries outs → (frameOf m).Valid ∧
      (∃ j a, (j, Out.tx a) ∈ tr ∧ Reads m a.bytes ∧ ∀ k, own a.to.ip = some k → q.host = k) ∧
      m.tid = (n.hosts q.host).node.lastTid ∧ handed outs = [] ∧ txs outs = []) ∧
    Emission (n.hosts q.host).node h'.node outs by
      rw [h1, h2]
      exact ⟨inv.owned _, by simp [txs], by simp [txs], by simp [deliveries], .none rfl⟩)
  cases o with
  | node =>
    simp only [Host.invoke] at hi
    obtain ⟨x, hx, hi⟩ := Res.bind_eq_ok.mp hi
    simp only [Res.pure_eq, Res.ok.injEq, Prod.mk.injEq] at hi
    obtain ⟨rfl, rfl⟩ := hi
    unfold Node.observeTry at hx
    split at hx
    · simp only [Res.ok.injEq] at hx
      subst hx
      exact nothing rfl rfl
    · have hx' : (n.hosts q.host).node.observe b e.ω e.ok q.msg = .ok (x.1, x.2) := hx
      have htr : x.1.transport = (n.hosts q.host).node.transport := by
        have := (invoke_txs (b := b) (db := db) (e := e) (msg := q.msg) (h := n.hosts q.host) (o := .node)
          (h' := { (n.hosts q.host) with node := x.1 }) (outs := x.2) (by
            simp only [Host.invoke, Node.observeTry]
            rw [if_neg (by assumption), hx']
            rfl)).1
        exact this
      refine ⟨?_, ?_, ?_, ?_, observe_emission hx'⟩
      · simp only [htr]; exact inv.owned _
      · intro t ht
        rcases observe_txs hx' with ⟨_, h0⟩ | ⟨_, _, _, _, h0⟩
        · simp only [h0] at ht; simp at ht
        · obtain ⟨_, s, hs, h0⟩ := h0 t ht
          rw [h0]; exact inv.owned _ s hs
      · intro t ht ha
        exact ⟨j, r, hr, observe_answers hx' hreads hvalid hip.symm ht ha⟩
      · intro ch m hm
        have hp := observe_post hx'
        split at hp
        · rename_i hc
          obtain ⟨_, m', hcl, hd⟩ := hp
          simp only [hd] at hm
          have hmm : m = m' := by
            cases hpost : (n.hosts q.host).node.post with
            | none => rw [hpost] at hm; simp at hm
            | some c => rw [hpost] at hm; simp at hm; exact hm.2
          subst hmm
          have hfr := clone_frame hfmt hsz hcl
          have hnr := Node.observe_nonrequest hc.1 hx'
          have htid : m.tid = q.msg.tid := by
            have := congrArg Frame.tid hfr
            exact UInt16.toNat.inj this
          refine ⟨by rw [hfr]; exact hvalid, ⟨j, r, hr, ?_, hto⟩, by rw [htid]; exact hc.2, hnr.2.2, hnr.2.1⟩
          unfold Reads
          rw [hfr]; exact hreads
        · simp only [hp.2] at hm; simp at hm
  | controller =>
    simp only [Host.invoke] at hi
    obtain ⟨x, hx, hi⟩ := Res.bind_eq_ok.mp hi
    simp only [Res.pure_eq, Res.ok.injEq, Prod.mk.injEq] at hi
    obtain ⟨rfl, rfl⟩ := hi
    exact nothing rfl rfl
  | device =>
    simp only [Host.invoke, Res.ok.injEq, Prod.mk.injEq] at hi
    obtain ⟨rfl, rfl⟩ := hi
    exact nothing rfl rfl
  | user k =>
    simp only [Host.invoke, Res.ok.injEq, Prod.mk.injEq] at hi
    obtain ⟨rfl, rfl⟩ := hi
    exact nothing rfl rfl

theorem TraceInv.internal {own : IpAddr → Option Nat} {plain : Prop} {n₀ n n' : Net S} {tr : List (Nat × Out)} {b : Build}
    {db : Database} {i : Nat} {outs : List Out} (inv : TraceInv own plain n₀ tr n) (hs : Net.Internal b db n i outs n')
    (hr : Routed own n outs n') : TraceInv own plain n₀ (tr ++ outs.map (fun o => (i, o))) n' := by
  have e0 : ∀ m : Node S, m.lastTid = (n.hosts i).node.lastTid → Emission (n.hosts i).node m [] := fun m h => .none h
  cases hs with
  | lose l₁ l₂ p hf =>
    exact inv.step hr (fun _ _ => rfl) (inv.owned _) inv.busy (by simp [txs]) (by simp [txs]) (by simp [deliveries])
      (e0 _ rfl)
  | receive l₁ l₂ p s hf hsrv hrun hidle =>
    have hp : p ∈ n.flying := by rw [hf]; simp
    unfold Net.received at hr ⊢
    rcases recvOne p.bytes p.src with ⟨m, e, h1, h2, h3, h4⟩ | h1 | h1
    · rw [h1] at hr ⊢
      refine inv.step hr (fun _ _ => rfl) (inv.owned _) ?_ (by simp [txs]) (by simp [txs]) (by simp [deliveries])
        (e0 _ rfl)
      intro q hq
      rcases List.mem_append.mp hq with hq | hq
      · exact inv.busy q hq
      · simp only [List.mem_cons, List.not_mem_nil, or_false] at hq
        subst hq
        have := inv.fly p hp
        exact ⟨p.bytes, by simpa [h3] using this, reads_received h2⟩
    · rw [h1] at hr ⊢
      refine inv.step hr ?_ ?_ inv.busy (by simp [txs]) (by simp [txs]) (by simp [deliveries])
        (e0 _ ?_)
      · intro j hj; simp [Net.setHost, hj]
      · simp only [Net.setHost, if_true]; exact kill_owned (inv.owned _)
      · simp [Net.setHost, Host.killThread]
    · rw [h1] at hr ⊢
      exact inv.step hr (fun _ _ => rfl) (inv.owned _) inv.busy (by simp [txs]) (by simp [txs]) (by simp [deliveries])
        (e0 _ rfl)
  | call l₁ l₂ q o os e h' outs ps hb ht hpo hu hi hps =>
    have hq : q ∈ n.busy := by rw [hb]; simp
    obtain ⟨g1, g2, g3, g4, g5⟩ := inv.observer hq hi
    refine inv.step hr ?_ ?_ ?_ g2 (fun _ => g3) g4 ?_
    · intro j hj; simp [Net.setHost, hj]
    · simp only [Net.setHost, if_true]; exact g1
    · intro q' hq'
      have hcases : q' ∈ l₁ ++ q :: l₂ ∨ q' = { q with todo := os } := by
        simp only [List.mem_append, List.mem_cons] at hq' ⊢
        rcases hq' with h | h | h
        · exact Or.inl (Or.inl h)
        · exact Or.inr h
        · exact Or.inl (Or.inr (Or.inr h))
      rcases hcases with h | rfl
      · exact inv.busy q' (by rw [hb]; exact h)
      · exact inv.busy q hq
    · simp only [Net.setHost, if_true]; exact g5
  | die l₁ l₂ q o os e hb ht hpo hu hi =>
    refine inv.step hr ?_ ?_ ?_ (by simp [txs]) (by simp [txs]) (by simp [deliveries])
        (e0 _ ?_)
    · intro j hj; simp [Net.setHost, Net.poison, hj]
    · simp only [Net.setHost, Net.poison, if_true]; exact kill_owned (inv.owned _)
    · intro q' hq'
      exact inv.busy q' (by rw [hb]; simp only [List.mem_append, List.mem_cons] at hq' ⊢; rcases hq' with h | h <;> simp [h])
    · simp [Net.setHost, Net.poison, Host.killThread]
  | crash l₁ l₂ q o os h' hb ht hpo hw ha =>
    obtain ⟨s, l, rfl⟩ := ha.same
    refine inv.step hr ?_ ?_ ?_ (by simp [txs]) (by simp [txs]) (by simp [deliveries])
        (e0 _ ?_)
    · intro j hj; simp [Net.setHost, Net.poison, hj]
    · simp only [Net.setHost, Net.poison, if_true]; exact kill_owned (h := { n.hosts q.host with node := { (n.hosts q.host).node with app := s }, seen := l }) (inv.owned _)
    · intro q' hq'
      exact inv.busy q' (by rw [hb]; simp only [List.mem_append, List.mem_cons] at hq' ⊢; rcases hq' with h | h <;> simp [h])
    · simp [Net.setHost, Net.poison, Host.killThread]
  | infected l₁ l₂ q o os hb ht hpo =>
    refine inv.step hr ?_ ?_ ?_ (by simp [txs]) (by simp [txs]) (by simp [deliveries])
        (e0 _ ?_)
    · intro j hj; simp [Net.setHost, hj]
    · simp only [Net.setHost, if_true]; exact kill_owned (inv.owned _)
    · intro q' hq'
      exact inv.busy q' (by rw [hb]; simp only [List.mem_append, List.mem_cons] at hq' ⊢; rcases hq' with h | h <;> simp [h])
    · simp [Net.setHost, Host.killThread]
  | skip l₁ l₂ q o os hb ht hpo hm =>
    refine inv.step hr (fun _ _ => rfl) (inv.owned _) ?_ (by simp [txs]) (by simp [txs]) (by simp [deliveries])
      (e0 _ rfl)
    intro q' hq'
    simp only [List.mem_append, List.mem_cons] at hq'
    rcases hq' with h | rfl | h
    · exact inv.busy q' (by rw [hb]; simp [h])
    · exact inv.busy q (by rw [hb]; simp)
    · exact inv.busy q' (by rw [hb]; simp [h])
  | done l₁ l₂ q hb ht =>
    refine inv.step hr (fun _ _ => rfl) (inv.owned _) ?_ (by simp [txs]) (by simp [txs]) (by simp [deliveries])
      (e0 _ rfl)
    intro q' hq'
    exact inv.busy q' (by rw [hb]; simp only [List.mem_append, List.mem_cons] at hq' ⊢; rcases hq' with h | h <;> simp [h])

theorem TraceInv.api {own : IpAddr → Option Nat} {plain : Prop} {n₀ n n' : Net S} {tr : List (Nat × Out)} {b : Build}
    {db : Database} {i : Nat} {op : HostOp S} {outs : List Out} (inv : TraceInv own plain n₀ tr n)
    (hs : Net.Api b db n i op outs n') (hr : Routed own n outs n') (ho : OwnInterfaces own i op)
    (hp : plain → NoAnswers op) : TraceInv own plain n₀ (tr ++ outs.map (fun o => (i, o))) n' := by
  cases hs with
  | mk h' _ ps ha hstep hps =>
    rcases host_api ha ho hstep with ⟨h1, rfl⟩ | ⟨nop, ha', ho', hp', h1, _⟩
    · refine inv.step hr ?_ ?_ inv.busy (by simp [txs]) (by simp [txs]) (by simp [deliveries]) (.none ?_)
      · intro j hj; simp [Net.setHost, hj]
      · simp only [Net.setHost, if_true, h1]; exact inv.owned _
      · simp only [Net.setHost, if_true, h1]
    · obtain ⟨⟨g1, g2, g3⟩, g4⟩ := node_api_puts (inv.owned i) ha' ho' h1
      refine inv.step hr ?_ ?_ inv.busy g2 ?_ (by rw [g4]; simp) ?_
      · intro j hj; simp [Net.setHost, hj]
      · simp only [Net.setHost, if_true]; exact g1
      · intro hpl t ht ⟨e, he, hae⟩
        obtain ⟨e', he', hae'⟩ := g3 (hp' (hp hpl)) t ht
        rw [he, Option.some.injEq] at he'
        rw [he', hae'] at hae
        simp at hae
      · simp only [Net.setHost, if_true]; exact step_emission h1

theorem traced_inv {b : Build} {db : Database} {own : IpAddr → Option Nat} {rule : HostOp S → Prop} {plain : Prop}
    (hpl : plain → ∀ op, rule op → NoAnswers op) {n₀ n : Net S} {tr : List (Nat × Out)} (h0 : AtRest own n₀)
    (h : Traced b db own rule n₀ tr n) : TraceInv own plain n₀ tr n := by
  induction h with
  | init => exact .init h0
  | internal _ hs hr ih => exact ih.internal hs hr
  | api _ hs hr ho hp ih => exact ih.api hs hr ho (fun h => hpl h _ hp)

/-! ## C76 -/

/-- C76: what the channel of a `post_message` yields is what some host sent, read in a datagram that was not addressed to
another host; whatever the applications do. -/
theorem C76_no_invention (b : Build) (db : Database) (own : IpAddr → Option Nat) (rule : HostOp S → Prop) (n₀ n : Net S)
    (h0 : AtRest own n₀) (tr pre suf : List (Nat × Out)) (h : Traced b db own rule n₀ tr n) (i ch : Nat) (m : Message)
    (hd : tr = pre ++ (i, Out.deliver ch m) :: suf) :
    ∃ j a, (j, Out.tx a) ∈ pre ∧ own a.iface = some j ∧ Reads m a.bytes ∧ ∀ k, own a.to.ip = some k → i = k := by
  have inv := traced_inv (plain := False) (fun h => h.elim) h0 h
  obtain ⟨_, ⟨j, a, h1, h2, h3⟩, _⟩ := inv.delivered pre suf i ch m hd
  exact ⟨j, a, h1, inv.addr j a (by rw [hd]; exact List.mem_append_left _ h1), h2, h3⟩

/-- C76, as far as it holds: if the message delivered is an answer (a response that is no notification) and applications
leave answering to the library, then some host sent it to answer a request which the receiving host had sent before. -/
theorem C76_answer_partial (b : Build) (db : Database) (own : IpAddr → Option Nat) (n₀ n : Net S)
    (h0 : AtRest own n₀) (tr pre suf : List (Nat × Out)) (h : Traced b db own NoAnswers n₀ tr n) (i ch : Nat) (m : Message)
    (hd : tr = pre ++ (i, Out.deliver ch m) :: suf) (ha : isAnswerByte m.esvByte = true) :
    ∃ p₁ j a p₂ r, pre = p₁ ++ (j, Out.tx a) :: p₂ ∧ (i, Out.tx r) ∈ p₁ ∧ own a.iface = some j ∧ own r.iface = some i ∧
      Reads m a.bytes ∧ Answers a r := by
  have inv := traced_inv (plain := True) (fun _ _ h => h) h0 h
  obtain ⟨hv, ⟨j, a, h1, h2, h3⟩, _⟩ := inv.delivered pre suf i ch m hd
  obtain ⟨p₁, p₂, hsp⟩ := List.append_of_mem h1
  obtain ⟨rest, hrest⟩ := h2
  have hw := wire_frame hv hrest
  have htr : tr = p₁ ++ (j, Out.tx a) :: (p₂ ++ (i, Out.deliver ch m) :: suf) := by rw [hd, hsp]; simp
  obtain ⟨k, r, hr, hans⟩ := inv.answered trivial _ _ _ _ htr ⟨m.esvByte, hw.2.2.2, ha⟩
  have hk := inv.addr k r (by rw [htr]; exact List.mem_append_left _ hr)
  have hik : i = k := h3 k (by rw [hans.to]; exact hk)
  subst hik
  exact ⟨p₁, j, a, p₂, r, hsp, hr, inv.addr j a (by rw [htr]; simp), hk, ⟨rest, hrest⟩, hans⟩

/-- C76, as far as it holds: if moreover the requests of the receiving host are numbered by the library (TID 0 given) and
the numbers have not wrapped around, the request answered is the last message which the library numbered on that host. -/
theorem C76_last_request_partial (b : Build) (db : Database) (own : IpAddr → Option Nat) (n₀ n : Net S)
    (h0 : AtRest own n₀) (tr pre suf : List (Nat × Out)) (h : Traced b db own NoAnswers n₀ tr n) (i ch : Nat) (m : Message)
    (hd : tr = pre ++ (i, Out.deliver ch m) :: suf) (ha : isAnswerByte m.esvByte = true)
    (hfew : (n₀.hosts i).node.lastTid.toNat + (autoTids (outsOf i pre)).length < 65536)
    (hreq : ∀ g u, (g, u) ∈ handed (outsOf i pre) → isRequestByte u.esvByte = true → g.tid = 0) :
    ∃ j a r g u, (j, Out.tx a) ∈ pre ∧ (i, Out.tx r) ∈ pre ∧ Reads m a.bytes ∧ Answers a r ∧ r.bytes = u.bytes ∧
      ((handed (outsOf i pre)).filter (fun x => x.1.tid == 0)).getLast? = some (g, u) := by
  have inv := traced_inv (plain := True) (fun _ _ h => h) h0 h
  obtain ⟨hv, _, htid, hauto, hsrc⟩ := inv.delivered pre suf i ch m hd
  obtain ⟨p₁, j, a, p₂, r, rfl, hr, _, _, ⟨rest, hrest⟩, hans⟩ := C76_answer_partial b db own n₀ n h0 tr pre suf h i ch m hd ha
  have hrp : (i, Out.tx r) ∈ p₁ ++ (j, Out.tx a) :: p₂ := List.mem_append_left _ hr
  obtain ⟨g, u, hgu, hru⟩ := hsrc r hrp
  obtain ⟨w1, _, _, w4⟩ := wire_bytes u
  rw [← hru] at w1 w4
  obtain ⟨e, he, hreqe, _⟩ := hans.service
  rw [w4, Option.some.injEq] at he
  have hg : g.tid = 0 := hreq g u hgu (by rw [he]; exact hreqe)
  have hmem : (g, u) ∈ (handed (outsOf i (p₁ ++ (j, Out.tx a) :: p₂))).filter (fun x => x.1.tid == 0) := by
    rw [List.mem_filter]; exact ⟨hgu, by simp [hg]⟩
  refine ⟨j, a, r, g, u, by simp, hrp, ⟨rest, hrest⟩, hans, hru, ?_⟩
  unfold autoTids at hauto htid hfew
  generalize hl : (handed (outsOf i (p₁ ++ (j, Out.tx a) :: p₂))).filter (fun x => x.1.tid == 0) = l at hauto htid hfew hmem ⊢
  simp only [List.length_map] at hauto htid hfew
  obtain ⟨k, hk, hlk⟩ := List.getElem_of_mem hmem
  have hu : u.tid = (n₀.hosts i).node.lastTid + 1 + UInt16.ofNat k := by
    have := congrArg (fun l => l[k]?) hauto
    simp only [List.getElem?_map] at this
    rw [List.getElem?_eq_getElem hk, hlk, List.getElem?_range hk] at this
    simpa using this
  generalize (n₀.hosts i).node.lastTid = t₀ at hu htid hfew
  have hun : u.tid.toNat = t₀.toNat + 1 + k := by
    rw [hu]
    simp only [UInt16.toNat_add, UInt16.toNat_ofNat', UInt16.reduceToNat]
    omega
  have hmn : m.tid.toNat = t₀.toNat + l.length := by
    rw [htid]
    simp only [UInt16.toNat_add, UInt16.toNat_ofNat']
    omega
  have hw := wire_frame hv hrest
  have hma : wireTid a.bytes = m.tid.toNat := hw.1
  have := hans.tid (by rw [w1, hun]; omega)
  rw [hma, w1, hmn, hun] at this
  have hkl : k = l.length - 1 := by omega
  rw [List.getLast?_eq_getElem?, ← hkl, List.getElem?_eq_getElem hk, hlk]

/-! ## Executions -/

/-- An application call on a node. -/
theorem traced_node {b : Build} {db : Database} {own : IpAddr → Option Nat} {rule : HostOp S → Prop} {n₀ x : Net S}
    {tr : List (Nat × Out)} (h : Traced b db own rule n₀ tr x) (i : Nat) {op : Op S} {n' : Node S} {outs : List Out}
    (ps : List Packet) (hs : (x.hosts i).node.step b op = .ok (n', outs)) (ha : Net.IsApi (.node op))
    (ho : OwnInterfaces own i (.node op)) (hp : rule (.node op))
    (hps : ∀ p ∈ ps, ∃ t, Out.tx t ∈ outs ∧ p.bytes = t.bytes ∧ p.src.ip = t.iface ∧
      ∀ j, own t.to.ip = some j → p.host = j) :
    Traced b db own rule n₀ (tr ++ outs.map (fun o => (i, o)))
      { x.setHost i { x.hosts i with node := n' } with flying := x.flying ++ ps } := by
  refine .api h (.mk { x.hosts i with node := n' } outs ps ha ?_ ?_) ?_ ho hp
  · simp only [Host.step, hs, Res.bind_ok, Res.pure_eq]
  · intro p hp
    obtain ⟨t, h1, h2, h3, _⟩ := hps p hp
    exact ⟨t, h1, h2, h3⟩
  · intro p hp
    rcases List.mem_append.mp hp with hp | hp
    · exact Or.inl hp
    · exact Or.inr (hps p hp)

/-- A receiver thread takes the only datagram and calls the node. -/
theorem traced_serve {b : Build} {db : Database} {own : IpAddr → Option Nat} {rule : HostOp S → Prop} {n₀ x : Net S}
    {tr : List (Nat × Out)} (h : Traced b db own rule n₀ tr x) {p : Packet} {s : Server} {m : Message} {en : LoopEnd}
    {n' : Node S} {outs : List Out} {ω : HashOrder} {ok : Nat → Bool} (ps : List Packet) (hf : x.flying = [p])
    (hidle : ∀ q ∈ x.busy, q.host ≠ p.host) (hpo : x.poisoned p.host .node = false)
    (hs : (x.hosts p.host).threads[p.srv]? = some s) (hr : s.thread = .running) (ho : s.observers = [.node])
    (hm : recvLoop [.datagram p.bytes p.src] = ([m], en))
    (hobs : (x.hosts p.host).node.observe b ω ok m = .ok (n', outs))
    (hps : ∀ p ∈ ps, ∃ t, Out.tx t ∈ outs ∧ p.bytes = t.bytes ∧ p.src.ip = t.iface ∧
      ∀ j, own t.to.ip = some j → p.host = j) :
    Traced b db own rule n₀ (tr ++ outs.map (fun o => (p.host, o)))
      { x.setHost p.host { x.hosts p.host with node := n' } with
        flying := ps, busy := x.busy ++ [⟨p.host, p.srv, m, []⟩] } := by
  have h1 := Net.Internal.receive (b := b) (db := db) (n := x) [] [] p s (by rw [hf]; rfl) hs hr
    (fun q hq hh => hidle q hq hh.1)
  have hx : x.received p s ([] ++ []) = { x with flying := [], busy := x.busy ++ [⟨p.host, p.srv, m, [.node]⟩] } := by
    unfold Net.received; rw [hm]; simp only [ho, List.append_nil]
  rw [hx] at h1
  have h2 := Net.Internal.call (b := b) (db := db)
    (n := ({ x with flying := [], busy := x.busy ++ [⟨p.host, p.srv, m, [.node]⟩] } : Net S)) x.busy []
    ⟨p.host, p.srv, m, [.node]⟩ .node [] ⟨true, true, ω, fun _ => List.replicate 16 0, ok⟩ { x.hosts p.host with node := n' } outs
    ps rfl rfl hpo (fun _ => rfl) (by
      simp only [Host.invoke, Node.observeTry, Bool.not_true, Bool.false_eq_true, if_false, hobs, Res.bind_ok, Res.pure_eq])
    (by intro p' hp'
        obtain ⟨t, g1, g2, g3, _⟩ := hps p' hp'
        exact ⟨t, g1, g2, g3⟩)
  have g1 := Traced.internal h h1 (by intro p' hp'; simp at hp')
  have g2 := Traced.internal g1 h2 (by intro p' hp'; exact Or.inr (hps p' (by simpa using hp')))
  simpa [Net.setHost] using g2

/-- Two hosts on one link, fresh and started, without devices. -/
def exHostA : Node Unit :=
  ⟨⟨[⟨.v4 0xC0A80001, [.node], .running⟩], [⟨.v4 0xC0A80001, [.node], .running⟩]⟩, [], 0, none, 0, [], [.node], ()⟩
def exHostB : Node Unit :=
  ⟨⟨[⟨.v4 0xC0A80002, [.node], .running⟩], [⟨.v4 0xC0A80002, [.node], .running⟩]⟩, [], 0, none, 0, [], [.node], ()⟩
def exLink (a b : Node Unit) : Net Unit :=
  ⟨fun i => if i = 0 then .ofNode a else if i = 1 then .ofNode b else ⟨exBare, [], []⟩, [], [], fun _ _ => false, fun _ => false⟩

/-- The announcement of a property value. -/
def exNote : Message := (((Message.new.setSeoj 0x029001).setDeoj 0x0EF001).setEsv .Notification).addProperty ⟨0x80, [0x30]⟩

/-- C76 fails in full: host 0 posts a read request, which gets lost; host 1, which never got it, announces a property
value, with TID 1 as it happens, and that announcement is delivered as the response. -/
theorem C76_fails (db : Database) : ∃ (n₀ n : Net Unit) (tr : List (Nat × Out)) (m : Message),
    AtRest exOwn n₀ ∧ Traced .dev db exOwn NoAnswers n₀ tr n ∧ (0, Out.deliver 0 m) ∈ tr ∧ m.esvByte = 0x73 ∧
    ∀ i a j r, (i, Out.tx a) ∈ tr → (j, Out.tx r) ∈ tr → ¬ Answers a r := by
  obtain ⟨A, oa, B, ob, m, A', m', ha, hb, ht, hm, hobs, hesv, htx⟩ : ∃ A oa B ob m A' m',
      exHostA.step .dev (.post ⟨.v4 0xC0A80002, 3610⟩ (exPost .ReadRequest) allOk) = .ok (A, oa) ∧
      exHostB.step .dev (.notify exNote allOk) = .ok (B, ob) ∧
      (⟨.v4 0xC0A80002, multicastAddr, (exNote.setTid 1).bytes⟩ : Tx) ∈ txs ob ∧
      recvLoop [.datagram (exNote.setTid 1).bytes ⟨.v4 0xC0A80002, 3610⟩] = ([m], .running) ∧
      A.observe .dev .ascending allOk m = .ok (A', [.deliver 0 m']) ∧ m'.esvByte = 0x73 ∧
      ∀ a ∈ txs oa ++ txs ob, a.bytes[10]? = some 0x62 ∨ a.bytes[10]? = some 0x73 := by
    refine ⟨_, _, _, _, _, _, _, rfl, rfl, by decide +kernel, rfl, rfl, by decide +kernel, by decide +kernel⟩
  have hq : AtRest exOwn (exLink exHostA exHostB) := by
    refine ⟨rfl, rfl, ?_⟩
    intro i s hs
    unfold exLink at hs
    simp only [] at hs
    split at hs
    · rename_i h; subst h
      simp only [Host.threads, Host.ofNode, exHostA, List.cons_append, List.nil_append, List.mem_cons, List.not_mem_nil, or_false, or_self] at hs
      rw [hs]; rfl
    · split at hs
      · rename_i h; subst h
        simp only [Host.threads, Host.ofNode, exHostB, List.cons_append, List.nil_append, List.mem_cons, List.not_mem_nil, or_false, or_self] at hs
        rw [hs]; rfl
      · simp [Host.threads, exBare, Manager.new] at hs
  have t1 := traced_node (b := .dev) (db := db) (own := exOwn) (rule := NoAnswers) (.init) (n₀ := exLink exHostA exHostB)
    0 [] ha trivial trivial (show isAnswerByte _ = false by decide +kernel) (by simp)
  have t2 := traced_node t1 1 [⟨⟨.v4 0xC0A80002, 3610⟩, 0, 1, (exNote.setTid 1).bytes⟩] hb trivial trivial
    (show isAnswerByte _ = false by decide +kernel) (by
    intro p hp
    simp only [List.mem_cons, List.not_mem_nil, or_false] at hp
    subst hp
    exact ⟨_, mem_txs.mpr ht, rfl, rfl, by intro j hj; revert hj; simp [exOwn, multicastAddr]⟩)
  have hA : A.transport = exHostA.transport := by
    simp only [Node.step, Node.postMessage, Res.ok.injEq, Prod.mk.injEq] at ha
    rw [← ha.1]; simp [Node.updateTid_transport]
  have t3 := traced_serve t2 (p := ⟨⟨.v4 0xC0A80002, 3610⟩, 0, 1, (exNote.setTid 1).bytes⟩)
    (s := ⟨.v4 0xC0A80001, [.node], .running⟩) [] rfl (by intro q hq; simp [Net.setHost, exLink] at hq) rfl
    (by simp [Net.setHost, Host.threads, hA, exHostA]) rfl rfl hm (by simpa [Net.setHost] using hobs) (by simp)
  refine ⟨_, _, _, m', hq, t3, by simp, hesv, ?_⟩
  intro i a j r h1 h2 hans
  have key : ∀ i t, (i, Out.tx t) ∈ [] ++ oa.map (fun o => (0, o)) ++ ob.map (fun o => (1, o)) ++
      [Out.deliver 0 m'].map (fun o => (0, o)) → t ∈ txs oa ++ txs ob := by
    intro i t h
    simp only [List.nil_append, List.map_cons, List.map_nil, List.mem_append, List.mem_cons, List.not_mem_nil, or_false,
      Prod.mk.injEq, reduceCtorEq, and_false] at h
    rcases h with h | h
    · exact List.mem_append_left _ (mem_txs.mp (mem_map_host.mp h).2)
    · exact List.mem_append_right _ (mem_txs.mp (mem_map_host.mp h).2)
  have ha := htx a (key i a h1)
  obtain ⟨e, he, hreq, hsv⟩ := hans.service
  have hr := htx r (key j r h2)
  rw [he] at hr
  simp only [Option.some.injEq] at hr
  rcases hr with rfl | rfl
  · rcases ha with ha | ha <;> rw [ha] at hsv <;> revert hsv <;> decide
  · revert hreq; decide

/-- Non-vacuity of C76: host 0 posts a read request to host 1, which has a device, host 1 answers, and the answer is
delivered. -/
example (db : Database) : ∃ (n₀ n : Net Unit) (tr : List (Nat × Out)) (m : Message),
    AtRest exOwn n₀ ∧ Traced .dev db exOwn NoAnswers n₀ tr n ∧ tr.getLast? = some (0, Out.deliver 0 m) ∧
    isAnswerByte m.esvByte = true ∧ m.properties = [⟨0x80, [0x30]⟩] ∧ autoTids (outsOf 0 tr) = [1] := by
  obtain ⟨N, A, oa, B, ob, rq, rs, A', m', hN, hNt, ha, ht, hr, hb, hta, hm, hobs, hesv, hp, hau⟩ :
      ∃ N A oa B ob rq rs A' m',
      exNode [acceptAll] = .ok N ∧ ({ N with transport := exHostB.transport } : Node Unit).transport = exHostB.transport ∧
      exHostA.step .dev (.post ⟨.v4 0xC0A80002, 3610⟩ ((exPost .ReadRequest).addProperty ⟨0x80, []⟩) allOk) = .ok (A, oa) ∧
      (⟨.v4 0xC0A80001, ⟨.v4 0xC0A80002, 3610⟩, (((exPost .ReadRequest).addProperty ⟨0x80, []⟩).setTid 1).bytes⟩ : Tx) ∈ txs oa ∧
      recvLoop [.datagram (((exPost .ReadRequest).addProperty ⟨0x80, []⟩).setTid 1).bytes ⟨.v4 0xC0A80001, 3610⟩] = ([rq], .running) ∧
      ({ N with transport := exHostB.transport } : Node Unit).observe .dev .ascending allOk rq = .ok (B, ob) ∧
      (⟨.v4 0xC0A80002, ⟨.v4 0xC0A80001, 3610⟩,
        [0x10, 0x81, 0, 1, 0x02, 0x90, 0x01, 0, 0, 0, 0x72, 1, 0x80, 1, 0x30]⟩ : Tx) ∈ txs ob ∧
      recvLoop [.datagram [0x10, 0x81, 0, 1, 0x02, 0x90, 0x01, 0, 0, 0, 0x72, 1, 0x80, 1, 0x30]
        ⟨.v4 0xC0A80002, 3610⟩] = ([rs], .running) ∧
      A.observe .dev .ascending allOk rs = .ok (A', [.deliver 0 m']) ∧ isAnswerByte m'.esvByte = true ∧
      m'.properties = [⟨0x80, [0x30]⟩] ∧
      autoTids (outsOf 0 ([] ++ oa.map (fun o => (0, o)) ++ ob.map (fun o => (1, o)) ++
        [Out.deliver 0 m'].map (fun o => (0, o)))) = [1] := by
    refine ⟨_, _, _, _, _, _, _, _, _, rfl, rfl, rfl, by decide +kernel, rfl, rfl, by decide +kernel, rfl, rfl,
      by decide +kernel, by decide +kernel, by decide +kernel⟩
  have hq : AtRest exOwn (exLink exHostA { N with transport := exHostB.transport }) := by
    refine ⟨rfl, rfl, ?_⟩
    intro i s hs
    unfold exLink at hs
    simp only [] at hs
    split at hs
    · rename_i h; subst h
      simp only [Host.threads, Host.ofNode, exHostA, List.cons_append, List.nil_append, List.mem_cons, List.not_mem_nil, or_false, or_self] at hs
      rw [hs]; rfl
    · split at hs
      · rename_i h; subst h
        simp only [Host.threads, Host.ofNode, exHostB, List.cons_append, List.nil_append, List.mem_cons, List.not_mem_nil, or_false, or_self] at hs
        rw [hs]; rfl
      · simp [Host.threads, exBare, Manager.new] at hs
  have t1 := traced_node (b := .dev) (db := db) (own := exOwn) (rule := NoAnswers) (.init)
    (n₀ := exLink exHostA { N with transport := exHostB.transport })
    0 [⟨⟨.v4 0xC0A80001, 3610⟩, 1, 0, (((exPost .ReadRequest).addProperty ⟨0x80, []⟩).setTid 1).bytes⟩] ha trivial trivial
    (show isAnswerByte _ = false by decide +kernel) (by
    intro p hp
    simp only [List.mem_cons, List.not_mem_nil, or_false] at hp
    subst hp
    exact ⟨_, mem_txs.mpr ht, rfl, rfl, by intro j hj; revert hj; simp [exOwn]⟩)
  have t2 := traced_serve t1 (p := ⟨⟨.v4 0xC0A80001, 3610⟩, 1, 0, (((exPost .ReadRequest).addProperty ⟨0x80, []⟩).setTid 1).bytes⟩)
    (s := ⟨.v4 0xC0A80002, [.node], .running⟩)
    [⟨⟨.v4 0xC0A80002, 3610⟩, 0, 0, [0x10, 0x81, 0, 1, 0x02, 0x90, 0x01, 0, 0, 0, 0x72, 1, 0x80, 1, 0x30]⟩] rfl
    (by intro q hq; simp [Net.setHost, exLink] at hq) rfl
    (by simp [Net.setHost, exLink, Host.ofNode, Host.threads, exHostB]) rfl rfl hr
    (by simpa [Net.setHost, exLink, Host.ofNode] using hb) (by
    intro p hp
    simp only [List.mem_cons, List.not_mem_nil, or_false] at hp
    subst hp
    exact ⟨_, mem_txs.mpr hta, rfl, rfl, by intro j hj; revert hj; simp [exOwn]⟩)
  have hA : A.transport = exHostA.transport := by
    simp only [Node.step, Node.postMessage, Res.ok.injEq, Prod.mk.injEq] at ha
    rw [← ha.1]; simp [Node.updateTid_transport]
  have t3 := traced_serve t2
    (p := ⟨⟨.v4 0xC0A80002, 3610⟩, 0, 0, [0x10, 0x81, 0, 1, 0x02, 0x90, 0x01, 0, 0, 0, 0x72, 1, 0x80, 1, 0x30]⟩)
    (s := ⟨.v4 0xC0A80001, [.node], .running⟩) [] rfl (by intro q hq; simp [Net.setHost, exLink] at hq; simp [hq]) rfl
    (by simp [Net.setHost, Host.threads, hA, exHostA]) rfl rfl hm (by simpa [Net.setHost] using hobs) (by simp)
  exact ⟨_, _, _, m', hq, t3, by simp, hesv, hp, hau⟩

end Uecho
