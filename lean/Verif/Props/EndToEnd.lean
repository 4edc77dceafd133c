import Verif.Spec.EndToEnd
import Verif.Props.Discovery
import Verif.Props.Crash
/-!
# Remote calls end to end: C64

A controller posts a request to a remote node; the datagram is received and processed by a device node;
the device's answer is received by the controller and handed to the caller.
-/
namespace Uecho
open Spec
variable {S S' : Type}

/-- The datagram of a posted request, received by another node: the same message, from the sender. -/
theorem call_arrives (okc : Nat → Bool) (c : Host S') (r : RemoteNode) (msg : Message)
    (hf : msg.isFormat1 = true) (hs : SizesOk msg) (h5 : msg.esvByte ≠ 0x5E) (t : Tx)
    (ht : t ∈ txs (c.postMessage okc r msg).2.2.2) (hlen : t.bytes.length ≤ 1024) (csrc : SocketAddr) :
    ∃ req, recvLoop [.datagram t.bytes csrc] = ([req], .running) ∧ req.sender = csrc ∧
      req.tid = (c.postMessage okc r msg).2.1.tid ∧ req.seoj = 0x0EF001 ∧ req.deoj = msg.deoj ∧
      req.esvByte = msg.esvByte ∧
      (if isWriteReadByte msg.esvByte = true then req.properties = [] ∧ req.setProperties = msg.setProperties ∧
        req.getProperties = msg.getProperties
       else req.properties = msg.properties ∧ req.setProperties = [] ∧ req.getProperties = []) := by
  obtain ⟨h1, h2, h3, h4, h5', h6, h7, _, h8, _⟩ := C49_post okc c r msg
  have hfmt : (c.postMessage okc r msg).2.1.isFormat1 = true :=
    (updateTid_fields c.node (msg.setSeoj nodeProfileCode)).2.2.2.2.2.2.1.trans hf
  have hb := (h8 t ht).2
  generalize (c.postMessage okc r msg).2.1 = u at *
  rw [Message.bytes_eq_encode u hfmt (by rw [h3]; exact h5)] at hb
  have hsu : SizesOk u := by unfold SizesOk; rw [h4, h5', h6]; exact hs
  obtain ⟨req, hrecv, hsrc, _, g1, g2, g3, g4, g5⟩ := recv_frame (frameOf u) (frameOf_valid u hsu)
    (by rw [← hb]; exact hlen) csrc
  rw [← hb] at hrecv
  have g4' : req.esvByte = msg.esvByte := by rw [g4]; show u.esvByte = _; rw [h3]
  refine ⟨req, hrecv, hsrc, UInt16.toNat.inj g1, (UInt32.toNat.inj g2).trans h1, (UInt32.toNat.inj g3).trans h2, g4', ?_⟩
  have hbody : (frameOf u).body = if isWriteReadByte msg.esvByte = true then .setGet msg.setProperties msg.getProperties
      else .single msg.properties := by
    unfold frameOf; rw [h3, h4, h5', h6]
  rw [hbody] at g5
  by_cases hw : isWriteReadByte msg.esvByte = true
  · rw [if_pos hw] at g5 ⊢; exact g5
  · rw [if_neg hw] at g5 ⊢; exact g5

/-- A response is no request, and copying it does not panic unless it is 0x5E: observing it succeeds. -/
theorem observe_response_ok (b : Build) (ω : HashOrder) (ok : Nat → Bool) (n : Node S) (msg : Message)
    (hr : isResponseByte msg.esvByte = true) (hf : msg.isFormat1 = true) (hs : SizesOk msg)
    (h5 : msg.esvByte ≠ 0x5E) : ∃ n' outs, n.observe b ω ok msg = .ok (n', outs) := by
  obtain ⟨m', hcl, _⟩ := C07_clone_partial msg hf hs h5
  have hresp : msg.esv.isResponse = true := by
    revert hr; unfold Message.esv; generalize msg.esvByte = e; revert e; decide +kernel
  have hm : ∀ n : Node S, n.messageReceived b ω msg = .ok (none, n) := by
    intro n; unfold Node.messageReceived; rw [if_pos hresp]
  unfold Node.observe Node.observePost
  split
  · rw [hcl]
    simp only [Res.bind_ok, Res.pure_eq, hm]
    exact ⟨_, _, rfl⟩
  · simp only [Res.bind_ok, hm]
    exact ⟨_, _, rfl⟩

/-- The datagram of an answer with the TID of the posted request, received by the controller's node
while it still waits, is handed to the caller. -/
theorem reply_delivered (b : Build) (okc : Nat → Bool) (c : Host S') (r : RemoteNode) (msg : Message)
    (h0 : msg.tid = 0) (u : Message) (hhead : HasHeader u (c.postMessage okc r msg).2.1.tid msg.deoj 0x0EF001 u.esvByte)
    (hr : isResponseByte u.esvByte = true) (h5 : u.esvByte ≠ 0x5E) (hs : SizesOk u) (hlen : u.bytes.length ≤ 1024)
    (dsrc : SocketAddr) :
    ∃ res, recvLoop [.datagram u.bytes dsrc] = ([res], .running) ∧
      ∀ (c₁ : Node S') mid o₁ ω' ok', Waits b (c.postMessage okc r msg).2.2.1.node c₁ (c.postMessage okc r msg).2.1.tid mid o₁ →
        ∃ c₂ outs₂ m, c₁.observe b ω' ok' res = .ok (c₂, outs₂) ∧
          deliveries outs₂ = [((c.postMessage okc r msg).1, m)] ∧
          m.seoj = msg.deoj ∧ m.deoj = 0x0EF001 ∧ m.esvByte = u.esvByte ∧ frameOf m = frameOf u := by
  have hub := Message.bytes_eq_encode u hhead.fmt h5
  obtain ⟨res, hrecv, hsrc, hfm, g1, g2, g3, g4, g5⟩ := recv_frame (frameOf u) (frameOf_valid u hs)
    (by rw [← hub]; exact hlen) dsrc
  rw [← hub] at hrecv
  refine ⟨res, hrecv, ?_⟩
  have hfr : frameOf res = frameOf u := by
    have g4' : res.esvByte = u.esvByte := g4
    unfold frameOf
    rw [g1, g2, g3, g4']
    simp only [frameOf, Frame.mk.injEq, true_and]
    by_cases hw : isWriteReadByte u.esvByte = true
    · simp only [frameOf, hw, if_true] at g5 ⊢
      rw [g5.2.1, g5.2.2]
    · simp only [frameOf, hw] at g5 ⊢
      rw [g5.1]; rfl
  have hesv : res.esvByte = u.esvByte := g4
  obtain ⟨_, hsz⟩ := received_fields ⟨_, _, hrecv⟩
  intro c₁ mid o₁ ω' ok' hw
  obtain ⟨c₂, outs₂, hobs⟩ := observe_response_ok b ω' ok' c₁ res (by rw [hesv]; exact hr) hfm hsz (by rw [hesv]; exact h5)
  have hnr : isRequestByte res.esvByte = false := by
    rw [hesv]; revert hr; generalize u.esvByte = e; revert e; decide +kernel
  obtain ⟨m, hd, k1, k2, k3, k4, k5⟩ := C40_delivered_partial b c.node c₁ c₂ ⟨r.addr.ip, port⟩ (msg.setSeoj nodeProfileCode)
    okc ok' h0 mid o₁ outs₂ hw.run hw.noPost (by
      unfold autoTids
      rw [List.map_eq_nil_iff, List.filter_eq_nil_iff]
      intro x hx
      have := hw.noAuto x.1 x.2 hx
      simpa using this) hw.noOther res ω' hnr ((UInt16.toNat.inj g1).trans hhead.tid) hfm hsz (by rw [hesv]; exact h5) hobs
  refine ⟨c₂, outs₂, m, hobs, hd, ?_, ?_, k4.trans hesv, k5.trans hfr⟩
  · rw [k2, ← hhead.seoj]; exact UInt32.toNat.inj g2
  · rw [k3, ← hhead.deoj]; exact UInt32.toNat.inj g3

/-- The device's side of a call. -/
theorem call_processed (b : Build) (ω : HashOrder) (ok : Nat → Bool) (n : Node S) (req : Message)
    (hk : ∀ o ∈ n.objects, KeysOk o) (hv : ∀ o ∈ n.objects, ValidObject b o) (hreq : Received req)
    (hcall : isCallByte req.esvByte = true) (pre post : List Object) (dst : Object) (ht : Targets n req pre dst post) :
    ∃ n' outs u, n.observe b ω ok req = .ok (n', outs) ∧ replies outs = [u] ∧ deliveries outs = [] ∧
      txs outs = (n.transport.send ok ⟨req.sender.ip, port⟩ u).2 := by
  have hr : isRequestByte req.esvByte = true := by
    revert hcall; generalize req.esvByte = e; revert e; decide +kernel
  have h5 : req.esvByte ≠ 0x5E := by
    revert hcall; generalize req.esvByte = e; revert e; decide +kernel
  cases hobs : n.observe b ω ok req with
  | panic => exact absurd ((C57_receive_panics_iff b ω ok n hv req hreq).mp hobs).1 h5
  | ok x =>
    obtain ⟨n', outs⟩ := x
    obtain ⟨copy, _, _, ha, hna⟩ := C26_accept_iff b ω ok n n' req outs pre post dst ht
      (hk dst (by rw [ht.split]; simp)) hr hobs
    have hsucc : ∃ s, successByte req.esvByte = some s ∧ isNotificationByte s = false ∧
        isNotificationByte (errorByte req.esvByte) = false := by
      revert hcall; generalize req.esvByte = e; revert e; decide +kernel
    obtain ⟨s, hs1, hs2, hs3⟩ := hsucc
    have hlen : ∃ e, (replies outs).map (fun u => u.esvByte) = [e] := by
      by_cases h : Accepted n req dst copy
      · have := ha h; rw [hs1] at this; exact ⟨_, this⟩
      · exact ⟨_, hna h⟩
    obtain ⟨e, he⟩ := hlen
    obtain ⟨u, hu⟩ : ∃ u, replies outs = [u] := by
      match hl : replies outs, he with
      | [u], _ => exact ⟨u, rfl⟩
      | [], he => simp at he
      | _ :: _ :: _, he => simp at he
    obtain ⟨_, _, hdel, _, svc, hhead, htx, hc⟩ := Node.reply_cases hk hobs (u := u) (by rw [hu]; simp)
    refine ⟨n', outs, u, rfl, hu, hdel, ?_⟩
    rw [htx]
    have : isNotificationByte svc = false := by
      rcases hc with ⟨h1, _⟩ | ⟨h1, _⟩
      · rw [h1]; exact hs3
      · rw [hs1] at h1; rw [← Option.some.inj h1]; exact hs2
    rw [this]; rfl

/-- The writes of a request, in a table of properties. -/
def Spec.written (f : UInt8 → Option Property) (ws : List WProperty) : UInt8 → Option Property := fun c =>
  (f c).map (fun p => match lastWrite ws c with
    | some d => { p with data := d }
    | none => p)

theorem dataOf_length (o : Object) (ps : List WProperty) : (dataOf o ps).length = ps.length := by simp [dataOf]
theorem ackOf_inRange {ps : List WProperty} (h : InRange ps) : InRange (ackOf ps) := by
  refine ⟨by simpa [ackOf] using h.1, ?_⟩
  intro p hp
  obtain ⟨q, _, rfl⟩ := List.mem_map.mp hp
  simp

theorem isCallByte_cases {e : UInt8} (h : isCallByte e = true) : e = 0x61 ∨ e = 0x62 ∨ e = 0x6E := by
  revert h; revert e; decide +kernel

theorem txs_send_iff (ok : Nat → Bool) (m : Manager) (to : SocketAddr) (u : Message) :
    (m.send ok to u).2 ≠ [] ↔ ∃ i, i < m.ucast.length ∧ ok i = true := by
  have hsend := C44_send ok m to u
  rw [← hsend.1]
  rcases Manager.send_cases ok m to u with ⟨h1, h2⟩ | ⟨h1, s, _, h2⟩ <;> simp [h1, h2]

theorem txs_send_mem {ok : Nat → Bool} {m : Manager} {to : SocketAddr} {u : Message} {t : Tx}
    (h : t ∈ (m.send ok to u).2) : t.to = to ∧ t.bytes = u.bytes := by
  rcases Manager.send_cases ok m to u with ⟨_, h2⟩ | ⟨_, s, _, h2⟩
  · rw [h2] at h; simp at h
  · rw [h2] at h
    rw [List.mem_singleton.mp h]; exact ⟨rfl, rfl⟩

/-- C64 (partial: the call is accepted whatever the hash orders, the device's handlers do not modify the
object, request and answer fit into 1024 bytes, the values read fit into 255 bytes, the TID does not wrap
to 0, nothing else uses the controller's TIDs while it waits): every datagram of the call makes the device
perform the writes and answer, to port 3610 of the caller's IP; and the datagram of the answer, whenever
it arrives, makes the call return a message from the object with the acknowledgement of the writes and the
values the object holds after them. -/
theorem C64_call_partial (b : Build)
    -- the caller
    (c : Host S') (okc : Nat → Bool) (r : RemoteNode) (msg : Message) (hf : msg.isFormat1 = true) (hs : SizesOk msg)
    (h0 : msg.tid = 0) (hcall : isCallByte msg.esvByte = true) (hlist : msg.esvByte = 0x6E → msg.properties = [])
    (hwrap : c.node.lastTid ≠ 65535) (t : Tx) (ht : t ∈ txs (c.postMessage okc r msg).2.2.2)
    (hlen : t.bytes.length ≤ 1024)
    -- the device
    (n : Node S) (hk : ∀ o ∈ n.objects, KeysOk o) (hv : ∀ o ∈ n.objects, ValidObject b o)
    (hh : ∀ h ∈ n.handlers, Passive h) (pre post : List Object) (dst : Object) (hdst : Targets n msg pre dst post)
    (hacc : ∀ copy : Object, copy.code = dst.code → SameProps copy.properties dst.properties → Accepted n msg dst copy)
    -- the network
    (csrc dsrc : SocketAddr) (ω : HashOrder) (ok : Nat → Bool) :
    ∃ req n' outs dst', recvLoop [.datagram t.bytes csrc] = ([req], .running) ∧
      n.observe b ω ok req = .ok (n', outs) ∧
      n'.objects = pre ++ dst' :: post ∧ dst'.code = dst.code ∧
      SameProps dst'.properties (written dst.properties (writesOf msg)) ∧
      (txs outs ≠ [] ↔ ∃ i, i < n.transport.ucast.length ∧ ok i = true) ∧
      ∀ t' ∈ txs outs, t'.to = ⟨csrc.ip, 3610⟩ ∧
        (t'.bytes.length ≤ 1024 → (∀ p ∈ dataOf dst' (readsOf msg), p.data.length ≤ 255) →
          ∃ res, recvLoop [.datagram t'.bytes dsrc] = ([res], .running) ∧
            ∀ (c₁ : Node S') mid o₁ ω' ok',
              Waits b (c.postMessage okc r msg).2.2.1.node c₁ (c.postMessage okc r msg).2.1.tid mid o₁ →
              ∃ c₂ outs₂ m, c₁.observe b ω' ok' res = .ok (c₂, outs₂) ∧
                deliveries outs₂ = [((c.postMessage okc r msg).1, m)] ∧
                m.seoj = msg.deoj ∧ m.deoj = 0x0EF001 ∧
                (msg.esvByte = 0x61 → m.esvByte = 0x71 ∧ m.properties = ackOf msg.properties) ∧
                (msg.esvByte = 0x62 → m.esvByte = 0x72 ∧ m.properties = dataOf dst' msg.properties) ∧
                (msg.esvByte = 0x6E → m.esvByte = 0x7E ∧ m.setProperties = ackOf msg.setProperties ∧
                  m.getProperties = dataOf dst' msg.getProperties)) := by
  have hcases := isCallByte_cases hcall
  have h5 : msg.esvByte ≠ 0x5E := by rcases hcases with h | h | h <;> rw [h] <;> decide
  obtain ⟨req, hrecv, hsrc, hrt, hrs, hrd, hre, hrb⟩ := call_arrives okc c r msg hf hs h5 t ht hlen csrc
  -- the received request is the posted one
  have hrp : req.properties = msg.properties := by
    rcases hcases with h | h | h
    · rw [h] at hrb; exact hrb.1
    · rw [h] at hrb; exact hrb.1
    · rw [h] at hrb; rw [hlist h]; exact hrb.1
  have hrw : writesOf req = writesOf msg ∧ readsOf req = readsOf msg := by
    unfold writesOf readsOf
    rcases hcases with h | h | h <;> rw [hre, h, hrp] <;> rw [h] at hrb <;> simp <;>
      exact ⟨hrb.2.1, hrb.2.2⟩
  have hra : ∀ copy, Accepted n msg dst copy → Accepted n req dst copy := by
    intro copy ha
    unfold Accepted Allowed Message.esv at *
    rw [hrw.1, hrw.2, hrp, hre]; exact ha
  have htgt : Targets n req pre dst post := ⟨hdst.split, by rw [hrd]; exact hdst.first, by rw [hrd]; exact hdst.code⟩
  have hkd : KeysOk dst := hk dst (by rw [hdst.split]; simp)
  have hr : isRequestByte req.esvByte = true := by rw [hre]; rcases hcases with h | h | h <;> rw [h] <;> rfl
  obtain ⟨n', outs, u, hobs, hu, hdel, htx⟩ := call_processed b ω ok n req hk hv ⟨_, _, hrecv⟩ (by rw [hre]; exact hcall)
    pre post dst htgt
  obtain ⟨copy, hcs, hcc, hwr, _⟩ := passive_write b ω ok n n' req outs pre post dst htgt hkd hr hh hobs
  obtain ⟨dst', hno, hdc, hsame⟩ := hwr (hra copy (hacc copy hcc hcs))
  obtain ⟨copy', hcs', hcc', hya, _⟩ := C26_accept_iff b ω ok n n' req outs pre post dst htgt hkd hr hobs
  have hesv := hya (hra copy' (hacc copy' hcc' hcs'))
  rw [hu, hre] at hesv
  have hmem : u ∈ replies outs := by rw [hu]; simp
  obtain ⟨_, _, _, _, svc, hhead, _, hc⟩ := Node.reply_cases hk hobs hmem
  have hne : isErrorByte u.esvByte = false := by
    rcases hcases with h | h | h <;> rw [h] at hesv <;> simp [successByte] at hesv <;> rw [hesv] <;> rfl
  obtain ⟨o', hfo, _, h62, h61, h6E⟩ := C29_read_returns_data b ω ok n n' req outs hk hobs u hmem hne
  have ho' : o' = dst' := by
    rw [hno, hrd, findObject_append hdst.first (hdc.trans hdst.code)] at hfo
    exact (Option.some.inj hfo).symm
  subst ho'
  refine ⟨req, n', outs, o', hrecv, hobs, hno, hdc, ?_, ?_, ?_⟩
  · rw [hrw.1] at hsame; exact hsame
  · rw [htx]; exact txs_send_iff ok n.transport _ u
  · intro t' ht'
    rw [htx] at ht'
    obtain ⟨hto, htb⟩ := txs_send_mem ht'
    refine ⟨by rw [hto, hsrc]; rfl, ?_⟩
    intro hfit hvals
    -- the header of the answer
    have htid : req.tid ≠ 0 := by
      rw [hrt, (C49_post okc c r msg).2.2.2.2.2.2.1, if_pos h0]
      intro hz
      apply hwrap
      have : c.node.lastTid.toNat < 65536 := UInt16.toNat_lt _
      have hz' := congrArg UInt16.toNat hz
      rw [UInt16.toNat_add] at hz'
      apply UInt16.toNat.inj
      have e1 : (1 : UInt16).toNat = 1 := rfl
      have e0 : (0 : UInt16).toNat = 0 := rfl
      rw [e1, e0] at hz'
      show c.node.lastTid.toNat = 65535
      omega
    have hhead' : HasHeader u (c.postMessage okc r msg).2.1.tid msg.deoj 0x0EF001 u.esvByte := by
      have h1 := hhead.tid
      rw [if_neg htid] at h1
      exact ⟨h1.trans hrt, hhead.seoj.trans hrd, hhead.deoj.trans hrs, rfl, hhead.fmt⟩
    have hrange : ∀ ps, InRange ps → (∀ p ∈ dataOf o' ps, p.data.length ≤ 255) → InRange (dataOf o' ps) :=
      fun ps h1 h2 => ⟨by rw [dataOf_length]; exact h1.1, h2⟩
    have hnil : InRange [] := by decide
    have hresp : isResponseByte u.esvByte = true := by
      rcases hcases with h | h | h <;> rw [h] at hesv <;> simp [successByte] at hesv <;> rw [hesv] <;> rfl
    have hn5 : u.esvByte ≠ 0x5E := by
      rcases hcases with h | h | h <;> rw [h] at hesv <;> simp [successByte] at hesv <;> rw [hesv] <;> decide
    have hsz : SizesOk u := by
      rcases hc with ⟨hx, _⟩ | ⟨hx, _, _, _, dd, _, _, hob, _, hcode, _, k1, k2, k3⟩
      · exfalso
        rw [← hhead.esv, hre] at hx
        rw [hx] at hne
        rcases hcases with h | h | h <;> rw [h] at hne <;> simp [errorByte, isErrorByte] at hne
      · unfold SizesOk
        rcases hcases with h | h | h
        · rw [h61 (Or.inl (hre.trans h)), k2, k3, hrp]
          unfold okMessage
          rw [hre, h]
          exact ⟨ackOf_inRange hs.1, hnil, hnil⟩
        · rw [h62 (Or.inl (hre.trans h)), k2, k3, hrp]
          unfold okMessage
          rw [hre, h]
          refine ⟨hrange _ hs.1 ?_, hnil, hnil⟩
          simpa [readsOf, h] using hvals
        · rw [(h6E (hre.trans h)).1, (h6E (hre.trans h)).2, k1]
          unfold okMessage
          rw [hre, h]
          rw [h] at hrb
          rw [hrb.2.1, hrb.2.2]
          refine ⟨hnil, ackOf_inRange hs.2.1, hrange _ hs.2.2 ?_⟩
          simpa [readsOf, h] using hvals
    obtain ⟨res, hrecv', hd⟩ := reply_delivered b okc c r msg h0 u hhead' hresp hn5 hsz (by rw [← htb]; exact hfit) dsrc
    rw [← htb] at hrecv'
    refine ⟨res, hrecv', ?_⟩
    intro c₁ mid o₁ ω' ok' hw
    obtain ⟨c₂, outs₂, m, m1, m2, m3, m4, m5, m6⟩ := hd c₁ mid o₁ ω' ok' hw
    refine ⟨c₂, outs₂, m, m1, m2, m3, m4, ?_, ?_, ?_⟩
    all_goals
      intro h
      rw [h] at hesv
      simp [successByte] at hesv
      have hb := congrArg Frame.body m6
      simp only [frameOf] at hb
      rw [m5, hesv] at hb
    · refine ⟨m5.trans hesv, ?_⟩
      rw [← hrp, ← h61 (Or.inl (hre.trans h))]
      simpa [isWriteReadByte] using hb
    · refine ⟨m5.trans hesv, ?_⟩
      rw [← hrp, ← h62 (Or.inl (hre.trans h))]
      simpa [isWriteReadByte] using hb
    · refine ⟨m5.trans hesv, ?_⟩
      rw [h] at hrb
      rw [← hrb.2.1, ← hrb.2.2, ← (h6E (hre.trans h)).1, ← (h6E (hre.trans h)).2]
      simpa [isWriteReadByte] using hb

/-- The TID of an automatically numbered call is not 0 unless the counter wraps. -/
theorem call_tid_ne (okc : Nat → Bool) (c : Host S') (r : RemoteNode) (msg : Message) (h0 : msg.tid = 0)
    (hwrap : c.node.lastTid ≠ 65535) : (c.postMessage okc r msg).2.1.tid ≠ 0 := by
  rw [(C49_post okc c r msg).2.2.2.2.2.2.1, if_pos h0]
  intro hz
  apply hwrap
  have : c.node.lastTid.toNat < 65536 := UInt16.toNat_lt _
  have hz' := congrArg UInt16.toNat hz
  rw [UInt16.toNat_add] at hz'
  apply UInt16.toNat.inj
  have e1 : (1 : UInt16).toNat = 1 := rfl
  have e0 : (0 : UInt16).toNat = 0 := rfl
  rw [e1, e0] at hz'
  show c.node.lastTid.toNat = 65535
  omega

/-- C64, refused calls (0x61 and 0x62; for 0x6E see `C64_fails_write_read`): if the object's attributes do
not allow the request, the device's objects stay as they are and the call returns the error response of
its service with the caller's own properties. -/
theorem C64_refused_partial (b : Build)
    (c : Host S') (okc : Nat → Bool) (r : RemoteNode) (msg : Message) (hf : msg.isFormat1 = true) (hs : SizesOk msg)
    (h0 : msg.tid = 0) (hcall : msg.esvByte = 0x61 ∨ msg.esvByte = 0x62)
    (hwrap : c.node.lastTid ≠ 65535) (t : Tx) (ht : t ∈ txs (c.postMessage okc r msg).2.2.2)
    (hlen : t.bytes.length ≤ 1024)
    (n : Node S) (hk : ∀ o ∈ n.objects, KeysOk o) (hv : ∀ o ∈ n.objects, ValidObject b o)
    (pre post : List Object) (dst : Object) (hdst : Targets n msg pre dst post) (hno : ¬ Allowed dst msg)
    (csrc dsrc : SocketAddr) (ω : HashOrder) (ok : Nat → Bool) :
    ∃ req n' outs, recvLoop [.datagram t.bytes csrc] = ([req], .running) ∧
      n.observe b ω ok req = .ok (n', outs) ∧ n'.objects = n.objects ∧
      (txs outs ≠ [] ↔ ∃ i, i < n.transport.ucast.length ∧ ok i = true) ∧
      ∀ t' ∈ txs outs, t'.to = ⟨csrc.ip, 3610⟩ ∧
        ∃ res, recvLoop [.datagram t'.bytes dsrc] = ([res], .running) ∧
          ∀ (c₁ : Node S') mid o₁ ω' ok',
            Waits b (c.postMessage okc r msg).2.2.1.node c₁ (c.postMessage okc r msg).2.1.tid mid o₁ →
            ∃ c₂ outs₂ m, c₁.observe b ω' ok' res = .ok (c₂, outs₂) ∧
              deliveries outs₂ = [((c.postMessage okc r msg).1, m)] ∧
              m.seoj = msg.deoj ∧ m.deoj = 0x0EF001 ∧ m.properties = msg.properties ∧
              (msg.esvByte = 0x61 → m.esvByte = 0x51) ∧ (msg.esvByte = 0x62 → m.esvByte = 0x52) := by
  have h5 : msg.esvByte ≠ 0x5E := by rcases hcall with h | h <;> rw [h] <;> decide
  have hcb : isCallByte msg.esvByte = true := by rcases hcall with h | h <;> rw [h] <;> rfl
  have hw : isWriteReadByte msg.esvByte = false := by rcases hcall with h | h <;> rw [h] <;> rfl
  obtain ⟨req, hrecv, hsrc, hrt, hrs, hrd, hre, hrb⟩ := call_arrives okc c r msg hf hs h5 t ht hlen csrc
  rw [hw] at hrb
  have hrb : req.properties = msg.properties ∧ req.setProperties = [] ∧ req.getProperties = [] := hrb
  have hrw : writesOf req = writesOf msg ∧ readsOf req = readsOf msg := by
    unfold writesOf readsOf
    rcases hcall with h | h <;> rw [hre, h, hrb.1] <;> simp
  have hra : ¬ Allowed dst req := by
    unfold Allowed at *; rw [hrw.1, hrw.2]; exact hno
  have htgt : Targets n req pre dst post := ⟨hdst.split, by rw [hrd]; exact hdst.first, by rw [hrd]; exact hdst.code⟩
  have hkd : KeysOk dst := hk dst (by rw [hdst.split]; simp)
  have hr : isRequestByte req.esvByte = true := by rw [hre]; rcases hcall with h | h <;> rw [h] <;> rfl
  obtain ⟨n', outs, u, hobs, hu, hdel, htx⟩ := call_processed b ω ok n req hk hv ⟨_, _, hrecv⟩ (by rw [hre]; exact hcb)
    pre post dst htgt
  obtain ⟨hobj, hesv⟩ := C31_all_or_nothing b ω ok n n' req outs pre post dst htgt hkd hr hra hobs
  rw [hu, hre] at hesv
  have hesv' : u.esvByte = errorByte msg.esvByte := by simpa using hesv
  have htid : req.tid ≠ 0 := by rw [hrt]; exact call_tid_ne okc c r msg h0 hwrap
  obtain ⟨e1, e2, e3, e4, e5, e6, e7⟩ := C27_error_echo_partial b ω ok n n' req outs hk hobs u (by rw [hu]; simp)
    (by rw [hesv']; rcases hcall with h | h <;> rw [h] <;> rfl)
    (by rw [hre]; rcases hcall with h | h <;> rw [h] <;> decide) htid
  obtain ⟨_, _, _, _, svc, hhead, _⟩ := Node.reply_cases hk hobs (u := u) (by rw [hu]; simp)
  refine ⟨req, n', outs, hrecv, hobs, hobj, by rw [htx]; exact txs_send_iff ok n.transport _ u, ?_⟩
  intro t' ht'
  rw [htx] at ht'
  obtain ⟨hto, htb⟩ := txs_send_mem ht'
  refine ⟨by rw [hto, hsrc]; rfl, ?_⟩
  have hhead' : HasHeader u (c.postMessage okc r msg).2.1.tid msg.deoj 0x0EF001 u.esvByte :=
    ⟨e1.trans hrt, e2.trans hrd, e3.trans hrs, rfl, hhead.fmt⟩
  have hsz : SizesOk u := by
    unfold SizesOk; rw [e5, e6, e7, hrb.1]; exact ⟨hs.1, by decide, by decide⟩
  have hn5 : u.esvByte ≠ 0x5E := by rw [hesv']; rcases hcall with h | h <;> rw [h] <;> decide
  -- the answer has the length of the request
  have hfit : u.bytes.length ≤ 1024 := by
    obtain ⟨g1, g2, g3, g4, g5, g6, g7, _, g8, _⟩ := C49_post okc c r msg
    have hb := (g8 t ht).2
    have hfmt : (c.postMessage okc r msg).2.1.isFormat1 = true :=
      (updateTid_fields c.node (msg.setSeoj nodeProfileCode)).2.2.2.2.2.2.1.trans hf
    rw [Message.bytes_eq_encode _ hfmt (by rw [g3]; exact h5)] at hb
    rw [hb] at hlen
    rw [Message.bytes_eq_encode u hhead.fmt hn5]
    have hwu : isWriteReadByte u.esvByte = false := by rw [hesv']; rcases hcall with h | h <;> rw [h] <;> rfl
    have b1 : (frameOf u).body = .single msg.properties := by simp [frameOf, hwu, e5, hrb.1]
    have b2 : (frameOf (c.postMessage okc r msg).2.1).body = .single msg.properties := by
      simp [frameOf, g3, hw, g4]
    unfold Frame.encode at hlen ⊢
    rw [b2] at hlen
    rw [b1]
    simpa [be_length] using hlen
  obtain ⟨res, hrecv', hd⟩ := reply_delivered b okc c r msg h0 u hhead' (by
    rw [hesv']; rcases hcall with h | h <;> rw [h] <;> rfl) hn5 hsz hfit dsrc
  rw [← htb] at hrecv'
  refine ⟨res, hrecv', ?_⟩
  intro c₁ mid o₁ ω' ok' hwt
  obtain ⟨c₂, outs₂, m, m1, m2, m3, m4, m5, m6⟩ := hd c₁ mid o₁ ω' ok' hwt
  have hb := congrArg Frame.body m6
  have hwu : isWriteReadByte u.esvByte = false := by rw [hesv']; rcases hcall with h | h <;> rw [h] <;> rfl
  simp only [frameOf, m5, hwu] at hb
  refine ⟨c₂, outs₂, m, m1, m2, m3, m4, ?_, ?_, ?_⟩
  · rw [← hrb.1, ← e5]; simpa using hb
  · intro h; rw [m5, hesv', h]; rfl
  · intro h; rw [m5, hesv', h]; rfl

/-- C64 is false for refused write-read calls: every datagram of the device's answer to a 0x6E call that
the object's attributes do not allow panics the thread that receives it at the caller, before the caller
or any later datagram is served. -/
theorem C64_fails_write_read (b : Build)
    (c : Host S') (okc : Nat → Bool) (r : RemoteNode) (msg : Message) (hf : msg.isFormat1 = true) (hs : SizesOk msg)
    (hcall : msg.esvByte = 0x6E) (t : Tx) (ht : t ∈ txs (c.postMessage okc r msg).2.2.2)
    (hlen : t.bytes.length ≤ 1024)
    (n : Node S) (hk : ∀ o ∈ n.objects, KeysOk o) (hv : ∀ o ∈ n.objects, ValidObject b o)
    (pre post : List Object) (dst : Object) (hdst : Targets n msg pre dst post) (hno : ¬ Allowed dst msg)
    (hset : (msg.setProperties ++ msg.setProperties).length ≤ 255)
    (csrc dsrc : SocketAddr) (ω : HashOrder) (ok : Nat → Bool) :
    ∃ req n' outs, recvLoop [.datagram t.bytes csrc] = ([req], .running) ∧
      n.observe b ω ok req = .ok (n', outs) ∧
      (txs outs ≠ [] ↔ ∃ i, i < n.transport.ucast.length ∧ ok i = true) ∧
      ∀ t' ∈ txs outs, t'.bytes.length ≤ 1024 → ∀ later,
        recvLoop (.datagram t'.bytes dsrc :: later) = ([], .panicked) := by
  have h5 : msg.esvByte ≠ 0x5E := by rw [hcall]; decide
  have hcb : isCallByte msg.esvByte = true := by rw [hcall]; rfl
  obtain ⟨req, hrecv, hsrc, hrt, hrs, hrd, hre, hrb⟩ := call_arrives okc c r msg hf hs h5 t ht hlen csrc
  rw [hcall] at hrb
  have hrb : req.properties = [] ∧ req.setProperties = msg.setProperties ∧ req.getProperties = msg.getProperties := hrb
  have hra : ¬ Allowed dst req := by
    unfold Allowed writesOf readsOf at *; rw [hre, hcall] ; rw [hcall] at hno
    simpa [hrb.2.1, hrb.2.2] using hno
  have htgt : Targets n req pre dst post := ⟨hdst.split, by rw [hrd]; exact hdst.first, by rw [hrd]; exact hdst.code⟩
  have hkd : KeysOk dst := hk dst (by rw [hdst.split]; simp)
  have hr : isRequestByte req.esvByte = true := by rw [hre, hcall]; rfl
  obtain ⟨n', outs, u, hobs, hu, hdel, htx⟩ := call_processed b ω ok n req hk hv ⟨_, _, hrecv⟩ (by rw [hre]; exact hcb)
    pre post dst htgt
  obtain ⟨_, hesv⟩ := C31_all_or_nothing b ω ok n n' req outs pre post dst htgt hkd hr hra hobs
  rw [hu, hre, hcall] at hesv
  have hesv' : u.esvByte = 0x5E := by simpa [errorByte] using hesv
  obtain ⟨_, e5, e6, e7⟩ := C27_write_read_fails b ω ok n n' req outs hk hobs u (by rw [hu]; simp)
    (by rw [hesv']; rfl) (hre.trans hcall)
  obtain ⟨_, _, _, _, svc, hhead, _⟩ := Node.reply_cases hk hobs (u := u) (by rw [hu]; simp)
  refine ⟨req, n', outs, hrecv, hobs, by rw [htx]; exact txs_send_iff ok n.transport _ u, ?_⟩
  intro t' ht' hfit later
  rw [htx] at ht'
  obtain ⟨_, htb⟩ := txs_send_mem ht'
  have hsz : SizesOk u := by
    unfold SizesOk
    rw [e5, e6, e7, hrb.2.1]
    refine ⟨⟨hset, ?_⟩, by decide, by decide⟩
    intro p hp
    rcases List.mem_append.mp hp with hp | hp <;> exact hs.2.1.2 p hp
  have hp := C01_fails_for_0x5E u hhead.fmt hsz hesv'
  unfold recvLoop
  have htake : t'.bytes.take maxPacketSize = t'.bytes := List.take_of_length_le hfit
  rw [htake, htb, hp]

/-! ### A concrete call -/

/-- The request of a caller: to 0x029001, TID left to the library. -/
def exPost (svc : ESV) : Message := ((Message.new.setDeoj 0x029001).setEsv svc)

/-- The remote node called. -/
def exRemote : RemoteNode := ⟨⟨.v4 0xC0A80002, 3610⟩, []⟩

/-- Non-vacuity of `C64_call_partial`: a write to 0xB0 with response, from the example controller to the
example node with a handler that accepts everything. The caller's request fits, goes out, and what it
waits through is non-empty; the example node meets the hypotheses. -/
example : ∃ n, exNode [acceptAll] = .ok n ∧
    let msg := (exPost .WriteRequestResponseRequired).addProperty ⟨0xB0, [0x42]⟩
    msg.isFormat1 = true ∧ SizesOk msg ∧ msg.tid = 0 ∧ isCallByte msg.esvByte = true ∧
    exController.node.lastTid ≠ 65535 ∧ (txs (exController.postMessage allOk exRemote msg).2.2.2).length = 1 ∧
    (∀ t ∈ txs (exController.postMessage allOk exRemote msg).2.2.2, t.bytes.length ≤ 1024) ∧
    (∃ dst, Targets n msg [] dst [] ∧ Accepted n msg dst dst) ∧
    ∃ r, n.observe .dev .ascending allOk ((msg.setTid 1).setFrom ⟨.v4 9, 3610⟩) = .ok r ∧ (txs r.2).length = 1 := by
  refine ⟨_, rfl, by decide +kernel, by decide +kernel, by decide +kernel, by decide +kernel, by decide +kernel,
    by decide +kernel, by decide +kernel, ⟨_, ⟨rfl, by simp, by decide +kernel⟩, ?_⟩, _, rfl, by decide +kernel⟩
  refine ⟨⟨?_, ?_⟩, Or.inr (Or.inl ⟨rfl, trivial⟩)⟩
  · intro w hw
    have hw : w ∈ [(⟨0xB0, [0x42]⟩ : WProperty)] := hw
    rw [List.mem_singleton.mp hw]
    exact ⟨_, rfl, by decide +kernel, by decide +kernel⟩
  · intro w hw
    have hw : w ∈ ([] : List WProperty) := hw
    simp at hw

/-- Non-vacuity of `C64_refused_partial` and `C64_fails_write_read`: reading the property 0xE0, which the
example node's object does not have. -/
example : ∃ n, exNode [acceptAll] = .ok n ∧
    let read := (exPost .ReadRequest).addProperty ⟨0xE0, []⟩
    let wr := ((exPost .WriteReadRequest).addPropertySet ⟨0xB0, [0x42]⟩).addPropertyGet ⟨0xE0, []⟩
    ∃ dst, Targets n read [] dst [] ∧ Targets n wr [] dst [] ∧ ¬ Allowed dst read ∧ ¬ Allowed dst wr ∧
      read.esvByte = 0x62 ∧ wr.esvByte = 0x6E ∧ SizesOk read ∧ SizesOk wr ∧
      (txs (exController.postMessage allOk exRemote read).2.2.2).length = 1 ∧
      (txs (exController.postMessage allOk exRemote wr).2.2.2).length = 1 := by
  refine ⟨_, rfl, _, ⟨rfl, by simp, by decide +kernel⟩, ⟨rfl, by simp, by decide +kernel⟩, ?_, ?_, by decide +kernel,
    by decide +kernel, by decide +kernel, by decide +kernel, by decide +kernel, by decide +kernel⟩ <;>
  · intro h
    obtain ⟨p, hp, _⟩ := h.2 ⟨0xE0, []⟩ (by decide +kernel)
    have h2 := Option.isSome_iff_exists.mpr ⟨p, hp⟩
    clear hp h
    revert h2
    decide +kernel

/-- Waiting: the controller's node receives someone else's request and an answer with another TID. -/
example : let msg := (exPost .ReadRequest).addProperty ⟨0x80, []⟩
    let s := exController.postMessage allOk exRemote msg
    let mid : List (Op Unit) := [.receive (exRequest .ReadRequest 7) true .ascending allOk,
      .receive (exRequest .ReadResponse 9) true .ascending allOk]
    ∃ c₁ o₁, Waits .dev s.2.2.1.node c₁ s.2.1.tid mid o₁ := by
  refine ⟨_, _, ⟨rfl, ?_, ?_, ?_⟩⟩
  · intro op hop to m ok h
    subst h
    simp at hop
  · intro g u h
    have h : (g, u) ∈ ([] : List (Message × Message)) := h
    simp at h
  · intro m ω ok hm
    simp only [List.mem_cons, Op.receive.injEq, List.not_mem_nil, or_false] at hm
    rcases hm with ⟨rfl, _⟩ | ⟨rfl, _⟩
    · left; decide +kernel
    · right; decide +kernel

/-! ## C65 -/

/-- Observers that are handed a message that is no request transmit nothing and change no object. -/
theorem notifyObservers_silent {b : Build} {db : Database} {msg : Message} (hr : isRequestByte msg.esvByte = false)
    (obs : List ObserverRef) (env : Nat → CallEnv) (h h' : Host S) (outs : List Out)
    (hn : h.notifyObservers b db env msg obs = .ok (h', outs)) :
    txs outs = [] ∧ h'.node.objects = h.node.objects := by
  induction obs generalizing h env outs with
  | nil =>
    simp only [Host.notifyObservers, Res.ok.injEq, Prod.mk.injEq] at hn
    obtain ⟨rfl, rfl⟩ := hn
    exact ⟨rfl, rfl⟩
  | cons o obs ih =>
    simp only [Host.notifyObservers] at hn
    obtain ⟨r, h1, hn⟩ := Res.bind_eq_ok.mp hn
    obtain ⟨r', h2, hn⟩ := Res.bind_eq_ok.mp hn
    simp only [Res.pure_eq, Res.ok.injEq, Prod.mk.injEq] at hn
    obtain ⟨rfl, rfl⟩ := hn
    obtain ⟨i1, i2⟩ := ih _ _ _ h2
    have hone : txs r.2 = [] ∧ r.1.node.objects = h.node.objects := by
      cases o with
      | node =>
        simp only [Host.invoke] at h1
        obtain ⟨x, hx, h1⟩ := Res.bind_eq_ok.mp h1
        simp only [Res.pure_eq, Res.ok.injEq] at h1
        subst h1
        unfold Node.observeTry at hx
        split at hx
        · simp only [Res.ok.injEq] at hx
          subst hx; exact ⟨rfl, rfl⟩
        · obtain ⟨k1, k2, _⟩ := Node.observe_nonrequest (n' := x.1) (outs := x.2) hr hx
          refine ⟨k2, ?_⟩
          rcases k1 with k | k <;> simp only [k]
      | controller =>
        simp only [Host.invoke] at h1
        obtain ⟨x, hx, h1⟩ := Res.bind_eq_ok.mp h1
        simp only [Res.pure_eq, Res.ok.injEq] at h1
        subst h1; exact ⟨rfl, rfl⟩
      | device =>
        simp only [Host.invoke, Res.ok.injEq] at h1
        subst h1; exact ⟨rfl, rfl⟩
      | user k =>
        simp only [Host.invoke, Res.ok.injEq] at h1
        subst h1; exact ⟨rfl, rfl⟩
    refine ⟨?_, i2.trans hone.2⟩
    unfold txs at i1 hone ⊢
    rw [List.filterMap_append, i1, hone.1]; rfl

/-- C65: announcing a property of an object changes no object of the node; it returns `true` iff every
multicast socket works, and then there is one datagram per multicast server to 224.0.23.0:3610. Each such
datagram, received by any other node, reaches each of the application's observers there (once per
registration on the receiving server), with the object's code as SEOJ and exactly the property's code and
data; the receiving node answers nothing and changes nothing. -/
theorem C65_announce (ok : Nat → Bool) (n : Node S) (obj : Object) (prop : Property) (hlen : prop.data.length ≤ 255) :
    (n.announceProperty ok obj prop).2.1.objects = n.objects ∧
    ((n.announceProperty ok obj prop).1 = true ↔ ∀ i, i < n.transport.mcast.length → ok i = true) ∧
    ((n.announceProperty ok obj prop).1 = true →
      (txs (n.announceProperty ok obj prop).2.2).map (fun t => (t.iface, t.to)) =
        n.transport.mcast.map (fun s => (s.ifaddr, ⟨.v4 0xE0001700, 3610⟩))) ∧
    ∀ t ∈ txs (n.announceProperty ok obj prop).2.2, ∀ src : SocketAddr,
      ∃ m, recvLoop [.datagram t.bytes src] = ([m], .running) ∧ m.sender = src ∧ m.tid = n.lastTid + 1 ∧
        m.seoj = obj.code ∧ m.deoj = 0x0EF001 ∧ m.esvByte = 0x73 ∧ m.properties = [⟨prop.code, prop.data⟩] ∧
        ∀ (b : Build) (ω₀ : HashOrder) (db : Database), standardDb b ω₀ = .ok db →
          ∀ (h : Host S') (obs : List ObserverRef) (env : Nat → CallEnv), Sound b h.node →
            (∀ i j, ((env i).uuid j).length = 16) →
            ∃ h' outs, h.notifyObservers b db env m obs = .ok (h', outs) ∧
              h'.seen = h.seen ++ (users obs).map (fun k => (k, m)) ∧ txs outs = [] ∧
              h'.node.objects = h.node.objects := by
  have hfields := updateTid_fields n (Node.announceMessage obj prop)
  have hmsg : (Node.announceMessage obj prop).isFormat1 = true ∧ (Node.announceMessage obj prop).esvByte = 0x73 ∧
      (Node.announceMessage obj prop).properties = [⟨prop.code, prop.data⟩] ∧
      (Node.announceMessage obj prop).tid = 0 := ⟨rfl, rfl, rfl, rfl⟩
  have hdeoj : (Node.announceMessage obj prop).deoj = 0x0EF001 :=
    UInt32.toNat.inj ((C09_header_accessors (Message.new.setEsv .Notification) 0 nodeProfileCode .Unknown).2.2.1)
  have hseoj : (Node.announceMessage obj prop).seoj = obj.code :=
    UInt32.toNat.inj (((C09_header_accessors ((Message.new.setEsv .Notification).setDeoj nodeProfileCode) 0 obj.code
      .Unknown).2.1).trans (Nat.mod_eq_of_lt (code_lt obj)))
  have htr : (n.updateTid (Node.announceMessage obj prop)).2.transport = n.transport := Node.updateTid_transport _ _
  have hnot := C44_notify_partial ok n.transport (n.updateTid (Node.announceMessage obj prop)).1
  have htxs : txs (n.announceProperty ok obj prop).2.2 =
      (n.transport.notify ok (n.updateTid (Node.announceMessage obj prop)).1).2 := by
    simp only [Node.announceProperty, Node.notify]
    rw [txs_handed_cons, htr]
  have hres : (n.announceProperty ok obj prop).1 =
      (n.transport.notify ok (n.updateTid (Node.announceMessage obj prop)).1).1 := by
    simp only [Node.announceProperty, Node.notify]
    rw [htr]
  refine ⟨Node.updateTid_objects _ _, by rw [hres]; exact hnot.1, ?_, ?_⟩
  · intro hok
    rw [htxs, hnot.2.1 (hres ▸ hok), List.map_map]
    rfl
  · intro t ht src
    rw [htxs] at ht
    have htb : t.bytes = (n.updateTid (Node.announceMessage obj prop)).1.bytes := by
      obtain ⟨k, hk, _⟩ := Manager.notify_cases ok n.transport (n.updateTid (Node.announceMessage obj prop)).1
      rw [hk] at ht
      obtain ⟨s, _, rfl⟩ := List.mem_map.mp ht
      rfl
    generalize (n.updateTid (Node.announceMessage obj prop)).1 = u at hfields htb
    have hub : u.bytes = Frame.encode ⟨u.tid.toNat, u.seoj.toNat, 0x0EF001, 0x73, .single [⟨prop.code, prop.data⟩]⟩ := by
      rw [Message.bytes_eq_encode u (hfields.2.2.2.2.2.2.1.trans hmsg.1) (by rw [hfields.2.2.1, hmsg.2.1]; decide)]
      unfold frameOf
      rw [hfields.2.2.1, hmsg.2.1, hfields.2.1, hdeoj, hfields.2.2.2.1, hmsg.2.2.1]
      rfl
    obtain ⟨m, hrecv, hsrc, hfm, htid, hse, hde, hes, hpr, _, _⟩ :=
      recv_frame ⟨u.tid.toNat, u.seoj.toNat, 0x0EF001, 0x73, .single [⟨prop.code, prop.data⟩]⟩
        ⟨UInt16.toNat_lt _, Message.objectCode_lt _, show (0x0EF001 : Nat) < 2 ^ 24 by decide,
          show isWriteReadByte 0x73 = false by decide, show (1 : Nat) ≤ 255 by decide, by
          intro p' hp'; rw [List.mem_singleton.mp hp']; exact hlen⟩
        (by
          simp only [Frame.encode, List.length_append, be_length, Body.encode, encList, encProp, List.length_cons,
            List.length_nil, List.flatMap_cons, List.flatMap_nil]
          omega) src
    rw [← hub, ← htb] at hrecv
    refine ⟨m, hrecv, hsrc, ?_, ?_, UInt32.toNat.inj hde, hes, hpr, ?_⟩
    · have := hfields.2.2.2.2.2.2.2.2
      rw [hmsg.2.2.2, if_pos rfl] at this
      rw [← this]; exact UInt16.toNat.inj htid
    · rw [← hseoj, ← hfields.1]; exact UInt32.toNat.inj hse
    · intro b ω₀ db hdb h obs env hh hu
      have hsafe : SafeMessage m := ⟨⟨_, _, hrecv⟩, by rw [hes]; show (0x73 : UInt8) ≠ 0x5E; decide⟩
      obtain ⟨h', outs, hn, _⟩ := notifyObservers_ok hdb hsafe obs env hu hh
      obtain ⟨s1, s2⟩ := notifyObservers_silent (by rw [hes]; rfl) obs env h h' outs hn
      exact ⟨h', outs, hn, notifyObservers_seen m obs env h h' outs hn, s1, s2⟩

/-- C65 has a side effect nobody asked for (see C58): a controller that receives the announcement of any
property other than 0xD6 forgets all device objects of the announcing node. -/
theorem C65_controller_forgets (b : Build) (ω₀ : HashOrder) (db : Database) (hdb : standardDb b ω₀ = .ok db)
    (ok : Nat → Bool) (n : Node S) (obj : Object) (prop : Property) (hlen : prop.data.length ≤ 255)
    (h6 : prop.code ≠ 0xD6) (t : Tx) (ht : t ∈ txs (n.announceProperty ok obj prop).2.2) (src : SocketAddr) :
    ∃ m, recvLoop [.datagram t.bytes src] = ([m], .running) ∧
      ∀ (c : Host S') (e : CallEnv), e.ctrlFree = true → (∀ i, (e.uuid i).length = 16) →
        ∃ c' r, c.invoke b db e m .controller = .ok (c', []) ∧
          c'.remotes = c.remotes.eraseP (fun x => x.addr = src) ++ [r] ∧
          r.addr = src ∧ r.objects.map (fun o => o.code.toNat) = [0x0EF001] := by
  obtain ⟨m, h1, h2, _, _, h3, h4, h5, _⟩ := (C65_announce (S' := S') ok n obj prop hlen).2.2.2 t ht src
  refine ⟨m, h1, ?_⟩
  intro c e he hu
  obtain ⟨c', r, r1, r2, r3, r4⟩ := invoke_no_list hdb (res := m) ⟨Or.inr h4, Or.inl h3⟩ (by
    rw [h5]; intro p hp; rw [List.mem_singleton.mp hp]; exact h6) c e he hu
  rw [h2] at r2 r3
  exact ⟨c', r, r1, r2, r3, r4⟩

/-- Two multicast servers: two datagrams. -/
example : ∃ n, exNode [] = .ok n ∧ ∀ o ∈ n.objects, ∀ p, o.properties 0xB0 = some p →
    p.data.length ≤ 255 ∧ p.code ≠ 0xD6 ∧ (txs (n.announceProperty allOk o p).2.2).length = 2 := by
  refine ⟨_, rfl, ?_⟩
  intro o ho p hp
  rw [List.mem_singleton.mp ho] at hp ⊢
  have : p = _ := (Option.some.inj hp).symm
  subst this
  decide +kernel

end Uecho
