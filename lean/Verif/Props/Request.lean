import Verif.Lemmas.Observe
import Verif.Props.Object
/-!
# Requests received by a node: C25 – C34, C36

`n.observe b ω ok msg = .ok (n', outs)` says that the node, in state `n`, processes the received message
`msg` completely: `n'` is the state afterwards and `outs` are the effects (`replies outs`: the messages
given to the transport, `txs outs`: the datagrams sent). `b` is the build, `ω` an arbitrary choice of
hash-map orders, `ok` an arbitrary outcome of the sends. That processing does not panic is C57.
-/
namespace Uecho
open Spec
variable {S : Type}

/-! ## Examples used below -/

/-- A running transport with one unicast and two multicast servers. -/
def exTransport : Manager :=
  ⟨[⟨.v4 0xC0A80002, [.node], .running⟩],
   [⟨.v4 0xC0A80002, [.node], .running⟩, ⟨.v4 0x0A000001, [.node], .running⟩]⟩

/-- A node with one object 0x029001 (properties 0x80, 0xB0, 0x9F) and the given handlers. -/
def exNode (hs : List (Handler Unit)) : Res (Node Unit) := do
  let o ← exObject [0x80, 0xB0, 0x9F]
  pure ⟨exTransport, [o], 5, none, 0, hs, [.node], ()⟩

/-- Accepts everything. -/
def acceptAll : Handler Unit := fun s o _ _ => (true, o, s)
/-- Refuses everything. -/
def refuseAll : Handler Unit := fun s o _ _ => (false, o, s)

/-- A request to the object of `exNode`. -/
def exRequest (svc : ESV) (tid : UInt16) : Message :=
  ((((Message.new.setTid tid).setSeoj 0x05FF01).setDeoj 0x029001).setEsv svc).setFrom
    ⟨.v4 0xC0A80009, 50000⟩

/-- Everything is sent successfully. -/
def allOk : Nat → Bool := fun _ => true

/-! ## C25 -/

/-- C25: a message that is no request, or that is addressed to an object the node does not have, gets no
reply; nothing is transmitted, no object changes, no handler is called, no TID is used up. -/
theorem C25_silence (b : Build) (ω : HashOrder) (ok : Nat → Bool) (n n' : Node S) (msg : Message)
    (outs : List Out) (h : n.observe b ω ok msg = .ok (n', outs))
    (hs : isRequestByte msg.esvByte = false ∨ ∀ o ∈ n.objects, o.code ≠ msg.deoj) :
    replies outs = [] ∧ txs outs = [] ∧ n'.objects = n.objects ∧ n'.app = n.app ∧
      n'.lastTid = n.lastTid := by
  cases hr : isRequestByte msg.esvByte with
  | false =>
    obtain ⟨h1, h2, h3⟩ := Node.observe_nonrequest hr h
    refine ⟨by simp [replies, h3], h2, ?_⟩
    rcases h1 with rfl | rfl <;> exact ⟨rfl, rfl, rfl⟩
  | true =>
    have hno : ∀ o ∈ n.objects, o.code ≠ msg.deoj := by
      rcases hs with hs | hs
      · simp [hr] at hs
      · exact hs
    obtain ⟨r, n₁, ho, hres⟩ := Node.observe_request hr h
    have : r = none ∧ n₁ = n := by
      cases ho with
      | silent _ => exact ⟨rfl, rfl⟩
      | invalid pre dst post _ h1 _ h2 => exact absurd h2 (hno dst (by rw [h1]; simp))
      | refused pre dst post _ _ h1 _ h2 => exact absurd h2 (hno dst (by rw [h1]; simp))
      | accepted pre dst post _ _ _ h1 _ h2 => exact absurd h2 (hno dst (by rw [h1]; simp))
    rcases hres with ⟨_, rfl, rfl⟩ | ⟨res, h', _⟩
    · rw [this.2]; exact ⟨rfl, rfl, rfl, rfl, rfl⟩
    · simp [this.1] at h'

example : ∃ n, exNode [acceptAll] = .ok n ∧
    ∃ r, n.observe .dev .ascending allOk ((exRequest .ReadRequest 7).setDeoj 0x029002) = .ok r ∧
      txs r.2 = [] := by
  refine ⟨_, rfl, _, rfl, ?_⟩; decide +kernel

/-! ## C26 -/

/-- C26: a request to an existing object gets the positive response of its service (none for 0x60) if
every property it mentions exists with the needed access right and capacity, and — unless no handler is
registered — some handler accepts all properties of the property list; otherwise it gets exactly one
reply, the error response. The handlers judge a copy of the object that agrees with it in everything
but the (recomputed) property-map data. -/
theorem C26_accept_iff (b : Build) (ω : HashOrder) (ok : Nat → Bool) (n n' : Node S) (msg : Message)
    (outs : List Out) (pre post : List Object) (dst : Object) (ht : Targets n msg pre dst post)
    (hk : KeysOk dst) (hr : isRequestByte msg.esvByte = true)
    (h : n.observe b ω ok msg = .ok (n', outs)) :
    ∃ copy, SameProps copy.properties dst.properties ∧ copy.code = dst.code ∧
      (Accepted n msg dst copy →
        (replies outs).map (fun u => u.esvByte) = (successByte msg.esvByte).toList) ∧
      (¬ Accepted n msg dst copy →
        (replies outs).map (fun u => u.esvByte) = [errorByte msg.esvByte]) := by
  obtain ⟨copy, app, hs, hid, _, hc⟩ := Node.observe_target ht hk hr h
  refine ⟨copy, hs, Node.code_of_sameId hid, ?_⟩
  rcases hc with ⟨hna, hn, ho⟩ | ⟨hacc, dst', hw, hk', hcode, hc⟩
  · refine ⟨fun ha => absurd ha hna, fun _ => ?_⟩
    rw [ho, replies_handed]
    have := (updateTid_header { n with app := app } msg _ _ (errorMessage_header msg hr)).1.esv
    simp only [List.map_cons, List.map_nil]
    rw [this]
  · refine ⟨fun _ => ?_, fun ha => absurd hacc ha⟩
    rcases hc with ⟨hs, _, rfl⟩ | ⟨svc, hsvc, hn, ho⟩
    · rw [hs]; rfl
    · rw [ho, replies_handed, hsvc]
      have := (updateTid_header { n with app := app, objects := pre ++ dst' :: post } msg _ _
        (okMessage_header dst' msg svc)).1.esv
      simp only [List.map_cons, List.map_nil, Option.toList]
      rw [this]

theorem someAccepts_of_mem {esv : ESV} {ps : List WProperty} {hs : List (Handler S)} {x : Object × S}
    {h : Handler S} (hm : h ∈ hs) (ha : ∀ o s, Accepts h esv ps o s) : SomeAccepts esv ps hs x := by
  induction hs generalizing x with
  | nil => simp at hm
  | cons h' hs ih =>
    rcases List.mem_cons.mp hm with rfl | hm
    · exact Or.inl (ha _ _)
    · exact Or.inr (ih hm)

theorem accepts_of_always {h : Handler S} {esv : ESV} (ha : ∀ s o p, (h s o esv p).1 = true)
    (ps : List WProperty) (o : Object) (s : S) : Accepts h esv ps o s := by
  induction ps generalizing o s with
  | nil => trivial
  | cons p ps ih => exact ⟨ha _ _ _, ih _ _⟩

/-- C26: if some registered handler accepts everything, an allowed request always succeeds. -/
theorem C26_accepting_handler (b : Build) (ω : HashOrder) (ok : Nat → Bool) (n n' : Node S) (msg : Message)
    (outs : List Out) (pre post : List Object) (dst : Object) (ht : Targets n msg pre dst post)
    (hk : KeysOk dst) (hr : isRequestByte msg.esvByte = true) (ha : Allowed dst msg)
    (hh : ∃ h ∈ n.handlers, ∀ s o p, (h s o msg.esv p).1 = true)
    (h : n.observe b ω ok msg = .ok (n', outs)) :
    (replies outs).map (fun u => u.esvByte) = (successByte msg.esvByte).toList := by
  obtain ⟨copy, _, _, h1, _⟩ := C26_accept_iff b ω ok n n' msg outs pre post dst ht hk hr h
  obtain ⟨hd, hm, hd'⟩ := hh
  exact h1 ⟨ha, Or.inr (someAccepts_of_mem hm (accepts_of_always hd' _))⟩

/-- C26: with the built-in handler alone (no handler registered by the application), every request to a
device object that carries at least one property in its property list is answered with an error, even
if the object has the property with the right access. -/
theorem C26_builtin_handler_only (b : Build) (ω : HashOrder) (ok : Nat → Bool) (n n' : Node S)
    (msg : Message) (outs : List Out) (pre post : List Object) (dst : Object)
    (ht : Targets n msg pre dst post) (hk : KeysOk dst) (hr : isRequestByte msg.esvByte = true)
    (hh : n.handlers = [nodeHandler]) (hnp : msg.deoj ≠ nodeProfileCode) (hp : msg.properties ≠ [])
    (h : n.observe b ω ok msg = .ok (n', outs)) :
    (replies outs).map (fun u => u.esvByte) = [errorByte msg.esvByte] ∧ n'.objects = n.objects := by
  have hna : ∀ copy : Object, copy.code = dst.code → ¬ Accepted n msg dst copy := by
    intro copy hc ⟨_, ha⟩
    rw [hh] at ha
    simp only [List.cons_ne_nil, false_or, SomeAccepts, or_false] at ha
    cases hps : msg.properties with
    | nil => exact hp hps
    | cons p ps =>
      rw [hps] at ha
      have := ha.1
      unfold nodeHandler at this
      rw [if_pos (by rw [hc, ht.code]; exact hnp)] at this
      simp at this
  obtain ⟨copy, app, hs, hid, _, hc⟩ := Node.observe_target ht hk hr h
  have hcode := Node.code_of_sameId hid
  rcases hc with ⟨_, hn, ho⟩ | ⟨hacc, _⟩
  · constructor
    · rw [ho, replies_handed]
      have := (updateTid_header { n with app := app } msg _ _ (errorMessage_header msg hr)).1.esv
      simp only [List.map_cons, List.map_nil]
      rw [this]
    · rw [hn, Node.updateTid_objects]
  · exact absurd hacc (hna copy hcode)

example : ∃ n, exNode [nodeHandler, acceptAll] = .ok n ∧
    ∃ r, n.observe .dev .ascending allOk ((exRequest .WriteRequestResponseRequired 7).addProperty
      ⟨0xB0, [0x41]⟩) = .ok r ∧ (replies r.2).map (fun u => u.esvByte) = [0x71] := by
  refine ⟨_, rfl, _, rfl, ?_⟩; decide +kernel

example : ∃ n, exNode [nodeHandler] = .ok n ∧
    ∃ r, n.observe .dev .ascending allOk ((exRequest .ReadRequest 7).addProperty
      ⟨0xB0, []⟩) = .ok r ∧ (replies r.2).map (fun u => u.esvByte) = [0x52] := by
  refine ⟨_, rfl, _, rfl, ?_⟩; decide +kernel

/-! ## C27 -/

theorem success_not_error (e s : UInt8) (h : successByte e = some s) : ¬ isErrorByte s = true := by
  revert e s; decide +kernel

/-- C27 (all services but write-read 0x6E, non-zero TID): an error reply carries the request's TID,
swapped EOJs, the error service of the request, and the request's properties with their data. Missing:
0x6E (`C27_write_read_fails`) and TID 0 (`C28_tid_zero_fails`). -/
theorem C27_error_echo_partial (b : Build) (ω : HashOrder) (ok : Nat → Bool) (n n' : Node S) (msg : Message)
    (outs : List Out) (hk : ∀ o ∈ n.objects, KeysOk o) (h : n.observe b ω ok msg = .ok (n', outs))
    (u : Message) (hu : u ∈ replies outs) (he : isErrorByte u.esvByte = true) (h6 : msg.esvByte ≠ 0x6E)
    (ht : msg.tid ≠ 0) :
    u.tid = msg.tid ∧ u.seoj = msg.deoj ∧ u.deoj = msg.seoj ∧ u.esvByte = errorByte msg.esvByte ∧
      u.properties = msg.properties ∧ u.setProperties = [] ∧ u.getProperties = [] := by
  obtain ⟨hr, _, _, _, svc, hh, _, hc⟩ := Node.reply_cases hk h hu
  have ht' := hh.tid
  rw [if_neg ht] at ht'
  rcases hc with ⟨rfl, _, h1, h2, h3⟩ | ⟨hs, _⟩
  · rw [if_neg h6] at h1
    exact ⟨ht', hh.seoj, hh.deoj, hh.esv, h1, h2, h3⟩
  · exfalso
    rw [hh.esv] at he
    exact success_not_error _ _ hs he

/-- C27 is false for write-read requests: every error reply to a 0x6E request lists the properties to
set twice, and none of the properties to get. -/
theorem C27_write_read_fails (b : Build) (ω : HashOrder) (ok : Nat → Bool) (n n' : Node S) (msg : Message)
    (outs : List Out) (hk : ∀ o ∈ n.objects, KeysOk o) (h : n.observe b ω ok msg = .ok (n', outs))
    (u : Message) (hu : u ∈ replies outs) (he : isErrorByte u.esvByte = true) (h6 : msg.esvByte = 0x6E) :
    u.esvByte = 0x5E ∧ u.properties = msg.setProperties ++ msg.setProperties ∧ u.setProperties = [] ∧
      u.getProperties = [] := by
  obtain ⟨hr, _, _, _, svc, hh, _, hc⟩ := Node.reply_cases hk h hu
  rcases hc with ⟨rfl, _, h1, h2, h3⟩ | ⟨hs, _⟩
  · rw [if_pos h6] at h1
    refine ⟨?_, h1, h2, h3⟩
    rw [hh.esv, h6]; rfl
  · exfalso
    rw [hh.esv] at he
    rw [h6] at hs
    have : svc = 0x7E := by simpa [successByte] using hs.symm
    subst this
    revert he; decide

/-- C27: the error reply to a write-read request cannot be decoded: parsing the datagram panics, so a
peer using this library crashes its receiver thread when it gets such a reply. -/
theorem C27_write_read_error_undecodable (b : Build) (ω : HashOrder) (ok : Nat → Bool) (n n' : Node S)
    (msg : Message) (outs : List Out) (hk : ∀ o ∈ n.objects, KeysOk o)
    (h : n.observe b ω ok msg = .ok (n', outs)) (u : Message) (hu : u ∈ replies outs)
    (he : isErrorByte u.esvByte = true) (h6 : msg.esvByte = 0x6E)
    (hl : InRange (msg.setProperties ++ msg.setProperties)) :
    ∀ t ∈ txs outs, Message.parse Message.new t.bytes = .panic := by
  obtain ⟨h1, h2, h3, h4⟩ := C27_write_read_fails b ω ok n n' msg outs hk h u hu he h6
  obtain ⟨_, _, _, _, svc, hh, htx, _⟩ := Node.reply_cases hk h hu
  intro t htm
  have hb : t.bytes = u.bytes := by
    rw [htx] at htm
    split at htm
    · obtain ⟨k, hk, _⟩ := Manager.notify_cases ok n.transport u
      rw [hk] at htm
      obtain ⟨s, _, rfl⟩ := List.mem_map.mp htm
      rfl
    · rcases Manager.send_cases ok n.transport ⟨msg.sender.ip, port⟩ u with ⟨_, h0⟩ | ⟨_, s, _, h0⟩
      · rw [h0] at htm; simp at htm
      · rw [h0] at htm; simp at htm; rw [htm]
  rw [hb]
  refine C01_fails_for_0x5E u hh.fmt ⟨?_, ?_, ?_⟩ h1
  · rw [h2]; exact hl
  · rw [h3]; exact ⟨by simp, by simp⟩
  · rw [h4]; exact ⟨by simp, by simp⟩

/-- A write-read request that is rejected (0xB1 does not exist), and its error reply. -/
example : ∃ n, exNode [acceptAll] = .ok n ∧
    ∃ r, n.observe .dev .ascending allOk (((exRequest .WriteReadRequest 7).addPropertySet
      ⟨0xB1, [0x41]⟩).addPropertyGet ⟨0x80, []⟩) = .ok r ∧
      (replies r.2).map (fun u => (u.esvByte, u.properties)) =
        [(0x5E, [⟨0xB1, [0x41]⟩, ⟨0xB1, [0x41]⟩])] ∧ (txs r.2).length = 1 := by
  refine ⟨_, rfl, _, rfl, ?_, ?_⟩ <;> decide +kernel

example : ∃ n, exNode [refuseAll] = .ok n ∧
    ∃ r, n.observe .dev .ascending allOk ((exRequest .WriteRequest 7).addProperty
      ⟨0xB0, [0x41]⟩) = .ok r ∧
      (replies r.2).map (fun u => (u.tid, u.esvByte, u.properties)) = [(7, 0x50, [⟨0xB0, [0x41]⟩])] := by
  refine ⟨_, rfl, _, rfl, ?_⟩; decide +kernel

/-! ## C28 -/

theorem mem_txs_bytes {ok : Nat → Bool} {m : Manager} {to : SocketAddr} {u : Message} {t : Tx} {c : Bool}
    (h : t ∈ (if c then (m.notify ok u).2 else (m.send ok to u).2)) : t.bytes = u.bytes := by
  split at h
  · obtain ⟨k, hk, _⟩ := Manager.notify_cases ok m u
    rw [hk] at h
    obtain ⟨s, _, rfl⟩ := List.mem_map.mp h
    rfl
  · rcases Manager.send_cases ok m to u with ⟨_, h0⟩ | ⟨_, s, _, h0⟩
    · rw [h0] at h; simp at h
    · rw [h0] at h; simp at h; rw [h]

theorem mem_txs_reply {b : Build} {ω : HashOrder} {ok : Nat → Bool} {n n' : Node S} {msg : Message}
    {outs : List Out} (h : n.observe b ω ok msg = .ok (n', outs)) {t : Tx} (ht : t ∈ txs outs) :
    ∃ u, u ∈ replies outs := by
  cases hr : isRequestByte msg.esvByte with
  | false =>
    have := (Node.observe_nonrequest hr h).2.1
    simp [this] at ht
  | true =>
    obtain ⟨r, n₁, ho, hres⟩ := Node.observe_request hr h
    rcases hres with ⟨_, _, rfl⟩ | ⟨res, h', hres⟩
    · simp [txs] at ht
    · cases hb : isResponseByte res.esvByte with
      | true =>
        obtain ⟨_, rfl⟩ := hres.1 hb
        exact ⟨_, by rw [replies_handed]; exact List.mem_singleton.mpr rfl⟩
      | false => rw [hres.2 hb] at ht; simp [txs] at ht


/-- C28: the header of every datagram sent while processing a message with a non-zero TID: TID of the
request, the EOJs exchanged, and the positive or negative response service of the request. -/
theorem C28_header (b : Build) (ω : HashOrder) (ok : Nat → Bool) (n n' : Node S) (msg : Message)
    (outs : List Out) (hk : ∀ o ∈ n.objects, KeysOk o) (h : n.observe b ω ok msg = .ok (n', outs))
    (ht : msg.tid ≠ 0) (t : Tx) (htx : t ∈ txs outs) :
    isRequestByte msg.esvByte = true ∧ ∃ svc body, (successByte msg.esvByte = some svc ∨
        svc = errorByte msg.esvByte) ∧
      t.bytes = [0x10, 0x81] ++ be 2 msg.tid.toNat ++ be 3 msg.deoj.toNat ++ be 3 msg.seoj.toNat ++
        [svc] ++ body := by
  obtain ⟨u, hu⟩ := mem_txs_reply h htx
  obtain ⟨hr, _, _, _, svc, hh, htxs, hc⟩ := Node.reply_cases hk h hu
  rw [htxs] at htx
  have hb := mem_txs_bytes htx
  rw [Message.bytes_eq u hh.fmt, hh.tid, if_neg ht, hh.seoj, hh.deoj, hh.esv] at hb
  refine ⟨hr, svc, _, ?_, hb⟩
  rcases hc with ⟨h1, _⟩ | ⟨h1, _⟩
  · exact Or.inr h1
  · exact Or.inl h1

theorem ackOf_codes (ps : List WProperty) : (ackOf ps).map (fun p => p.code) = ps.map (fun p => p.code) := by
  simp [ackOf]
theorem dataOf_codes (o : Object) (ps : List WProperty) :
    (dataOf o ps).map (fun p => p.code) = ps.map (fun p => p.code) := by
  simp [dataOf]

/-- C28 (non-zero TID, not the error reply to a write-read request): every datagram sent while processing
a request is the frame with the request's TID, the EOJs exchanged, a response service of the request, and
a body listing the request's property codes in order — for write-read in the set and the get list.
Missing: TID 0 (`C28_tid_zero_fails`) and rejected write-read requests (`C27_write_read_fails`). -/
theorem C28_correlation_partial (b : Build) (ω : HashOrder) (ok : Nat → Bool) (n n' : Node S) (msg : Message)
    (outs : List Out) (hk : ∀ o ∈ n.objects, KeysOk o) (h : n.observe b ω ok msg = .ok (n', outs))
    (ht : msg.tid ≠ 0) (hrej : ∀ u ∈ replies outs, u.esvByte ≠ 0x5E) (t : Tx) (htx : t ∈ txs outs) :
    ∃ svc body, t.bytes = Frame.encode ⟨msg.tid.toNat, msg.deoj.toNat, msg.seoj.toNat, svc, body⟩ ∧
      (successByte msg.esvByte = some svc ∨ svc = errorByte msg.esvByte) ∧
      match body with
      | .single ps => msg.esvByte ≠ 0x6E ∧
          ps.map (fun p => p.code) = msg.properties.map (fun p => p.code)
      | .setGet s g => msg.esvByte = 0x6E ∧
          s.map (fun p => p.code) = msg.setProperties.map (fun p => p.code) ∧
          g.map (fun p => p.code) = msg.getProperties.map (fun p => p.code) := by
  obtain ⟨u, hu⟩ := mem_txs_reply h htx
  obtain ⟨hr, _, _, _, svc, hh, htxs, hc⟩ := Node.reply_cases hk h hu
  have h5 := hrej u hu
  rw [htxs] at htx
  have hbytes : t.bytes = (frameOf u).encode := by
    rw [mem_txs_bytes htx]; exact Message.bytes_eq_encode u hh.fmt h5
  have hframe : frameOf u = ⟨msg.tid.toNat, msg.deoj.toNat, msg.seoj.toNat, svc,
      if isWriteReadByte svc then .setGet u.setProperties u.getProperties else .single u.properties⟩ := by
    unfold frameOf; rw [hh.tid, if_neg ht, hh.seoj, hh.deoj, hh.esv]
  refine ⟨svc, _, by rw [hbytes, hframe], ?_, ?_⟩
  · rcases hc with ⟨h1, _⟩ | ⟨h1, _⟩
    · exact Or.inr h1
    · exact Or.inl h1
  rw [hh.esv] at h5
  rcases hc with ⟨h1, _, hp, _⟩ | ⟨h1, pre, dst, post, dst', _, _, _, _, _, _, hp, hs, hg⟩
  · have h6 : msg.esvByte ≠ 0x6E := by
      intro h6; rw [h1, h6] at h5; exact h5 rfl
    have : isWriteReadByte svc = false := by
      rw [h1]; revert h6; generalize msg.esvByte = e; revert e; decide +kernel
    rw [this]
    simp only [Bool.false_eq_true, if_false]
    rw [hp, if_neg h6]
    exact ⟨h6, rfl⟩
  · unfold okMessage at hp hs hg
    simp only [] at hp hs hg
    rcases (isRequestByte_iff _).mp hr with e | e | e | e | e | e
    all_goals rw [e] at h1 hp hs hg ⊢
    · simp [successByte] at h1
    · have : svc = 0x71 := by simpa [successByte] using h1.symm
      subst this
      rw [hp]; exact ⟨by decide, ackOf_codes _⟩
    · have : svc = 0x72 := by simpa [successByte] using h1.symm
      subst this
      rw [hp]; exact ⟨by decide, dataOf_codes _ _⟩
    · have : svc = 0x73 := by simpa [successByte] using h1.symm
      subst this
      rw [hp]; exact ⟨by decide, dataOf_codes _ _⟩
    · have : svc = 0x7E := by simpa [successByte] using h1.symm
      subst this
      rw [hs, hg]; exact ⟨rfl, ackOf_codes _, dataOf_codes _ _⟩
    · have : svc = 0x7A := by simpa [successByte] using h1.symm
      subst this
      rw [hp]; exact ⟨by decide, ackOf_codes _⟩

/-- C28 is false for TID 0: every reply to a request with TID 0 carries the node's next TID instead, and
uses it up. -/
theorem C28_tid_zero_fails (b : Build) (ω : HashOrder) (ok : Nat → Bool) (n n' : Node S) (msg : Message)
    (outs : List Out) (hk : ∀ o ∈ n.objects, KeysOk o) (h : n.observe b ω ok msg = .ok (n', outs))
    (ht : msg.tid = 0) (u : Message) (hu : u ∈ replies outs) : u.tid = n.lastTid + 1 := by
  obtain ⟨hr, _, _, _, svc, hh, htxs, hc⟩ := Node.reply_cases hk h hu
  rw [hh.tid, if_pos ht]

example : ∃ n, exNode [acceptAll] = .ok n ∧
    ∃ r, n.observe .dev .ascending allOk (((exRequest .WriteReadRequest 7).addPropertySet
      ⟨0xB0, [0x41]⟩).addPropertyGet ⟨0x80, []⟩) = .ok r ∧
      (txs r.2).map (fun t => t.bytes) = [[0x10, 0x81, 0, 7, 2, 0x90, 1, 5, 0xFF, 1, 0x7E, 1, 0xB0, 0,
        1, 0x80, 1, 0x30]] := by
  refine ⟨_, rfl, _, rfl, ?_⟩; decide +kernel

/-- A request with TID 0 to a node whose last TID is 5 is answered with TID 6. -/
example : ∃ n, exNode [acceptAll] = .ok n ∧
    ∃ r, n.observe .dev .ascending allOk ((exRequest .ReadRequest 0).addProperty ⟨0x80, []⟩) = .ok r ∧
      (replies r.2).map (fun u => u.tid) = [6] := by
  refine ⟨_, rfl, _, rfl, ?_⟩; decide +kernel

/-! ## C29 -/

/-- C29: the positive reply to a read (0x62), notification (0x63) or write-read (0x6E) request contains,
for each requested property in request order, the data the object holds afterwards; acknowledgements
(0x61, 0x74, and the set list of 0x6E) contain the requested codes with empty data. -/
theorem C29_read_returns_data (b : Build) (ω : HashOrder) (ok : Nat → Bool) (n n' : Node S) (msg : Message)
    (outs : List Out) (hk : ∀ o ∈ n.objects, KeysOk o) (h : n.observe b ω ok msg = .ok (n', outs))
    (u : Message) (hu : u ∈ replies outs) (he : isErrorByte u.esvByte = false) :
    ∃ o', findObject n'.objects msg.deoj = some o' ∧
      (∀ r ∈ readsOf msg, ∃ p, o'.properties r.code = some p) ∧
      (msg.esvByte = 0x62 ∨ msg.esvByte = 0x63 → u.properties = dataOf o' msg.properties) ∧
      (msg.esvByte = 0x61 ∨ msg.esvByte = 0x74 → u.properties = ackOf msg.properties) ∧
      (msg.esvByte = 0x6E → u.setProperties = ackOf msg.setProperties ∧
        u.getProperties = dataOf o' msg.getProperties) := by
  obtain ⟨hr, _, _, _, svc, hh, htxs, hc⟩ := Node.reply_cases hk h hu
  rcases hc with ⟨h1, _⟩ | ⟨h1, pre, dst, post, dst', ht, ha, ho, hk', hcode, hattrs, hp, hs, hg⟩
  · exfalso
    rw [hh.esv, h1] at he
    revert he; generalize msg.esvByte = e; revert e; decide +kernel
  · refine ⟨dst', by rw [ho]; exact findObject_append ht.first hcode, ?_, ?_, ?_, ?_⟩
    · intro r hr
      obtain ⟨p, hp, _⟩ := ha.2 r hr
      obtain ⟨q, hq, _⟩ := Node.exists_of_attrs hattrs hp
      exact ⟨q, hq⟩
    · rintro (e | e) <;> rw [hp] <;> simp [okMessage, e]
    · rintro (e | e) <;> rw [hp] <;> simp [okMessage, e]
    · intro e; rw [hs, hg]; simp [okMessage, e]

example : ∃ n, exNode [acceptAll] = .ok n ∧
    ∃ r, n.observe .dev .ascending allOk (((exRequest .ReadRequest 7).addProperty ⟨0xB0, []⟩).addProperty
      ⟨0x80, []⟩) = .ok r ∧ (replies r.2).map (fun u => (u.esvByte, u.properties)) =
        [(0x72, [⟨0xB0, [0x30]⟩, ⟨0x80, [0x30]⟩])] := by
  refine ⟨_, rfl, _, rfl, ?_⟩; decide +kernel

/-! ## C30 -/

theorem afterHandler_keysOk {h : Handler S} (hh : KeepsKeys h) (esv : ESV) (ps : List WProperty)
    (x : Object × S) (hk : KeysOk x.1) : KeysOk (afterHandler h esv ps x).1 := by
  induction ps generalizing x with
  | nil => exact hk
  | cons p ps ih => exact ih _ (hh _ _ _ _ hk)

theorem afterHandlers_keysOk {hs : List (Handler S)} (hh : ∀ h ∈ hs, KeepsKeys h) (esv : ESV)
    (ps : List WProperty) (x : Object × S) (hk : KeysOk x.1) : KeysOk (afterHandlers esv ps hs x).1 := by
  induction hs generalizing x with
  | nil => exact hk
  | cons h hs ih =>
    exact ih (fun h' hm => hh h' (by simp [hm])) _ (afterHandler_keysOk (hh h (by simp)) _ _ _ hk)

/-- What an accepted request does to its object (basis of C30). -/
theorem accepted_write (b : Build) (ω : HashOrder) (ok : Nat → Bool) (n n' : Node S) (msg : Message)
    (outs : List Out) (pre post : List Object) (dst : Object) (ht : Targets n msg pre dst post)
    (hk : KeysOk dst) (hr : isRequestByte msg.esvByte = true) (hh : ∀ h ∈ n.handlers, KeepsKeys h)
    (h : n.observe b ω ok msg = .ok (n', outs)) :
    ∃ copy, SameProps copy.properties dst.properties ∧ copy.code = dst.code ∧
      (Accepted n msg dst copy → ∃ dst', n'.objects = pre ++ dst' :: post ∧ dst'.code = dst.code ∧
        (∀ c, (dst'.properties c).map attrsOf = (dst.properties c).map attrsOf) ∧
        ∀ c p', dst'.properties c = some p' →
          match lastWrite (writesOf msg) c with
          | some d => p'.data = d
          | none =>
            match (afterHandlers msg.esv msg.properties n.handlers (copy, n.app)).1.properties c with
            | some q => p'.data = q.data
            | none => dst.properties c = some p') ∧
      (¬ Accepted n msg dst copy → (replies outs).map (fun u => u.esvByte) = [errorByte msg.esvByte]) := by
  obtain ⟨copy, app, hs, hid, _, hc⟩ := Node.observe_target ht hk hr h
  refine ⟨copy, hs, Node.code_of_sameId hid, fun hacc => ?_, fun hno => ?_⟩
  · rcases hc with ⟨hna, _⟩ | ⟨_, dst', hw, hk', hcode, hc⟩
    · exact absurd hacc hna
    · refine ⟨dst', ?_, hcode, ?_, ?_⟩
      · rcases hc with ⟨_, hn, _⟩ | ⟨_, _, hn, _⟩
        · rw [hn]
        · rw [hn, Node.updateTid_objects]
      · intro c; rw [hw, Node.writeLoop_attrs, Node.copyBack_attrs]
      · intro c p' hp'
        have hkc : KeysOk (afterHandlers msg.esv msg.properties n.handlers (copy, n.app)).1 :=
          afterHandlers_keysOk hh _ _ _ (Object.keysOk_congr hs.symm hk)
        rw [hw, Node.writeLoop_props, Node.copyBack_props hkc (HashOrder.isOrder _)] at hp'
        cases hd : dst.properties c with
        | none => simp [hd] at hp'
        | some p =>
          rw [hd] at hp'
          simp only [Option.map_some, Option.some.injEq] at hp'
          subst hp'
          cases hl : lastWrite (writesOf msg) c with
          | some d => simp [Property.setData]
          | none =>
            cases hq : (afterHandlers msg.esv msg.properties n.handlers (copy, n.app)).1.properties c with
            | some q => simp [Property.setData]
            | none => simp
  · rcases hc with ⟨_, _, ho⟩ | ⟨hacc, _⟩
    · rw [ho, replies_handed]
      have := (updateTid_header { n with app := app } msg _ _ (errorMessage_header msg hr)).1.esv
      simp only [List.map_cons, List.map_nil]
      rw [this]
    · exact absurd hacc hno

/-- `accepted_write` for handlers that leave the object alone. -/
theorem passive_write (b : Build) (ω : HashOrder) (ok : Nat → Bool) (n n' : Node S) (msg : Message)
    (outs : List Out) (pre post : List Object) (dst : Object) (ht : Targets n msg pre dst post)
    (hk : KeysOk dst) (hr : isRequestByte msg.esvByte = true) (hh : ∀ h ∈ n.handlers, Passive h)
    (h : n.observe b ω ok msg = .ok (n', outs)) :
    ∃ copy, SameProps copy.properties dst.properties ∧ copy.code = dst.code ∧
      (Accepted n msg dst copy → ∃ dst', n'.objects = pre ++ dst' :: post ∧ dst'.code = dst.code ∧
        SameProps dst'.properties (fun c => (dst.properties c).map (fun p =>
          match lastWrite (writesOf msg) c with
          | some d => p.setData d
          | none => p))) ∧
      (¬ Accepted n msg dst copy → (replies outs).map (fun u => u.esvByte) = [errorByte msg.esvByte]) := by
  have hkk : ∀ h ∈ n.handlers, KeepsKeys h := by
    intro h' hm s o esv p hk
    rw [hh h' hm]; exact hk
  obtain ⟨copy, hs, hc, hacc, hrej⟩ := accepted_write b ω ok n n' msg outs pre post dst ht hk hr hkk h
  refine ⟨copy, hs, hc, fun ha => ?_, hrej⟩
  obtain ⟨dst', h1, h2, h3, h4⟩ := hacc ha
  refine ⟨dst', h1, h2, fun c => ?_⟩
  rw [afterHandlers_passive hh] at h4
  show (isMapCode c = false → dst'.properties c = (dst.properties c).map _) ∧
    (dst'.properties c).map attrsOf = ((dst.properties c).map _).map attrsOf
  have h3' := h3 c
  cases hdd : dst.properties c with
  | none =>
    rw [hdd] at h3'
    simp only [Option.map_none, Option.map_eq_none_iff] at h3' ⊢
    exact ⟨fun _ => h3', h3'⟩
  | some p =>
    rw [hdd] at h3'
    simp only [Option.map_some] at h3' ⊢
    obtain ⟨p', hd, hp'⟩ := Option.map_eq_some_iff.mp h3'
    have h4' := h4 c p' hd
    rw [hd]
    constructor
    · intro hm
      rw [(hs c).1 hm, hdd] at h4'
      have hattr : p' = p.setData p'.data := by
        unfold attrsOf at hp'
        obtain ⟨a1, a2, a3, a4, a5, a6, a7, a8, a9⟩ := p'
        obtain ⟨b1, b2, b3, b4, b5, b6, b7, b8, b9⟩ := p
        simp only [Property.mk.injEq] at hp'
        simp only [Property.setData, Property.mk.injEq]
        simp [hp']
      cases hl : lastWrite (writesOf msg) c with
      | some d => rw [hl] at h4'; simp only [] at h4' ⊢; rw [hattr, h4']
      | none => rw [hl] at h4'; simp only [] at h4' ⊢; rw [hattr, h4']; rfl
    · simp only [Option.map_some, hp']
      cases hl : lastWrite (writesOf msg) c with
      | some d => simp only [attrsOf_setData]
      | none => simp only []

/-- The error service of a request is an error service. -/
theorem isErrorByte_errorByte (e : UInt8) : isErrorByte (errorByte e) = true := by
  unfold errorByte
  repeat' split
  all_goals rfl

theorem no_error_reply {l : List Message} {e : UInt8} (h : l.map (fun u => u.esvByte) = [errorByte e])
    (hne : ∀ u ∈ l, isErrorByte u.esvByte = false) : False := by
  obtain ⟨u, hu, he⟩ := List.mem_map.mp (show errorByte e ∈ l.map (fun u => u.esvByte) by simp [h])
  have h1 := hne u hu
  rw [he, isErrorByte_errorByte] at h1
  exact absurd h1 (by decide)

/-- C30: after a request that is not answered with an error, the object keeps its code and all property attributes; each
property holds the data written last by the request or, if the request does not write it, the data the handlers
left in their copy (which was accepted); all other objects are unchanged. -/
theorem C30_accepted_write (b : Build) (ω : HashOrder) (ok : Nat → Bool) (n n' : Node S) (msg : Message)
    (outs : List Out) (pre post : List Object) (dst : Object) (ht : Targets n msg pre dst post)
    (hk : KeysOk dst) (hr : isRequestByte msg.esvByte = true) (hh : ∀ h ∈ n.handlers, KeepsKeys h)
    (h : n.observe b ω ok msg = .ok (n', outs)) (hne : ∀ u ∈ replies outs, isErrorByte u.esvByte = false) :
    ∃ copy, SameProps copy.properties dst.properties ∧ copy.code = dst.code ∧ Accepted n msg dst copy ∧
      ∃ dst', n'.objects = pre ++ dst' :: post ∧ dst'.code = dst.code ∧
        (∀ c, (dst'.properties c).map attrsOf = (dst.properties c).map attrsOf) ∧
        ∀ c p', dst'.properties c = some p' →
          match lastWrite (writesOf msg) c with
          | some d => p'.data = d
          | none =>
            match (afterHandlers msg.esv msg.properties n.handlers (copy, n.app)).1.properties c with
            | some q => p'.data = q.data
            | none => dst.properties c = some p' := by
  obtain ⟨copy, h1, h2, h3, h4⟩ := accepted_write b ω ok n n' msg outs pre post dst ht hk hr hh h
  have ha : Accepted n msg dst copy := Classical.byContradiction (fun hn => no_error_reply (h4 hn) hne)
  exact ⟨copy, h1, h2, ha, h3 ha⟩

/-- C30, with handlers that leave the object alone: a write that is not answered with an error stores exactly the
written data and changes no other property (except that property maps may be recomputed). -/
theorem C30_passive_handlers (b : Build) (ω : HashOrder) (ok : Nat → Bool) (n n' : Node S) (msg : Message)
    (outs : List Out) (pre post : List Object) (dst : Object) (ht : Targets n msg pre dst post)
    (hk : KeysOk dst) (hr : isRequestByte msg.esvByte = true) (hh : ∀ h ∈ n.handlers, Passive h)
    (h : n.observe b ω ok msg = .ok (n', outs)) (hne : ∀ u ∈ replies outs, isErrorByte u.esvByte = false) :
    ∃ dst', n'.objects = pre ++ dst' :: post ∧ dst'.code = dst.code ∧
        SameProps dst'.properties (fun c => (dst.properties c).map (fun p =>
          match lastWrite (writesOf msg) c with
          | some d => p.setData d
          | none => p)) := by
  obtain ⟨copy, h1, h2, h3, h4⟩ := passive_write b ω ok n n' msg outs pre post dst ht hk hr hh h
  exact h3 (Classical.byContradiction (fun hn => no_error_reply (h4 hn) hne))

/-- Two writes to the same property and a read of another one: the last value is stored. -/
example : ∃ n, exNode [acceptAll] = .ok n ∧
    ∃ r, n.observe .dev .ascending allOk ((((exRequest .WriteReadRequest 7).addPropertySet
      ⟨0xB0, [0x41]⟩).addPropertySet ⟨0xB0, [0x42, 0x43]⟩).addPropertyGet ⟨0x80, []⟩) = .ok r ∧
      r.1.property 0x029001 0xB0 = some [0x42, 0x43] ∧ r.1.property 0x029001 0x80 = some [0x30] := by
  refine ⟨_, rfl, _, rfl, ?_, ?_⟩ <;> decide +kernel

example : Passive acceptAll ∧ KeepsKeys acceptAll := ⟨fun _ _ _ _ => rfl, fun _ _ _ _ h => h⟩

/-! ## C31 -/

/-- C31: a request answered with an error response changes no object, whatever the handlers did to the
object they were shown. -/
theorem C31_error_changes_nothing (b : Build) (ω : HashOrder) (ok : Nat → Bool) (n n' : Node S)
    (msg : Message) (outs : List Out) (hk : ∀ o ∈ n.objects, KeysOk o)
    (h : n.observe b ω ok msg = .ok (n', outs)) (u : Message) (hu : u ∈ replies outs)
    (he : isErrorByte u.esvByte = true) : n'.objects = n.objects := by
  obtain ⟨hr, _, _, _, svc, hh, htxs, hc⟩ := Node.reply_cases hk h hu
  rcases hc with ⟨_, h2, _⟩ | ⟨h1, _⟩
  · exact h2
  · rw [hh.esv] at he
    exact absurd he (success_not_error _ _ h1)

/-- C31, all-or-nothing: if one property of a request is not allowed (missing, wrong access, too long),
none of its writes takes effect, and the reply is the error response. -/
theorem C31_all_or_nothing (b : Build) (ω : HashOrder) (ok : Nat → Bool) (n n' : Node S)
    (msg : Message) (outs : List Out) (pre post : List Object) (dst : Object)
    (ht : Targets n msg pre dst post) (hk : KeysOk dst) (hr : isRequestByte msg.esvByte = true)
    (ha : ¬ Allowed dst msg) (h : n.observe b ω ok msg = .ok (n', outs)) :
    n'.objects = n.objects ∧ (replies outs).map (fun u => u.esvByte) = [errorByte msg.esvByte] := by
  obtain ⟨copy, app, hs, hid, _, hc⟩ := Node.observe_target ht hk hr h
  rcases hc with ⟨_, hn, ho⟩ | ⟨hacc, _⟩
  · constructor
    · rw [hn, Node.updateTid_objects]
    · rw [ho, replies_handed]
      have := (updateTid_header { n with app := app } msg _ _ (errorMessage_header msg hr)).1.esv
      simp only [List.map_cons, List.map_nil]
      rw [this]
  · exact absurd hacc.1 ha

/-- A write to an existing and a missing property, with a handler that modifies the object. -/
example : ∃ n, exNode [fun s o _ _ => (true, (o.setPropertyData 0xB0 [9]).2, s)] = .ok n ∧
    ∃ r, n.observe .dev .ascending allOk (((exRequest .WriteRequestResponseRequired 7).addProperty
      ⟨0xB0, [0x41]⟩).addProperty ⟨0xB1, [0x41]⟩) = .ok r ∧
      r.1.property 0x029001 0xB0 = some [0x30] ∧ (replies r.2).map (fun u => u.esvByte) = [0x51] := by
  refine ⟨_, rfl, _, rfl, ?_, ?_⟩ <;> decide +kernel

/-! ## C32 -/

/-- C32, disclosure: a reply either is an error reply, whose contents come from the request alone, or
carries non-empty data only for properties that are readable. -/
theorem C32_no_disclosure (b : Build) (ω : HashOrder) (ok : Nat → Bool) (n n' : Node S) (msg : Message)
    (outs : List Out) (hk : ∀ o ∈ n.objects, KeysOk o) (h : n.observe b ω ok msg = .ok (n', outs))
    (u : Message) (hu : u ∈ replies outs) (w : WProperty)
    (hw : w ∈ u.properties ++ u.setProperties ++ u.getProperties) (hd : w.data ≠ []) :
    (isErrorByte u.esvByte = true ∧ w ∈ msg.properties ++ msg.setProperties) ∨
    ∃ pre dst post p, Targets n msg pre dst post ∧ dst.properties w.code = some p ∧
      p.readAttr ≠ .Prohibited := by
  obtain ⟨hr, _, _, _, svc, hh, htxs, hc⟩ := Node.reply_cases hk h hu
  rcases hc with ⟨h1, _, hp, hs, hg⟩ | ⟨h1, pre, dst, post, dst', ht, ha, ho, hk', hcode, hattrs, hp, hs, hg⟩
  · left
    constructor
    · rw [hh.esv, h1]; generalize msg.esvByte = e; revert e; decide +kernel
    · rw [hp, hs, hg] at hw
      split at hw <;> simp at hw ⊢ <;> simp [hw]
  · right
    have key : ∀ ps : List WProperty, w ∈ dataOf dst' ps → ps = readsOf msg →
        ∃ p, dst.properties w.code = some p ∧ p.readAttr ≠ .Prohibited := by
      intro ps hm hps
      obtain ⟨r, hr', rfl⟩ := List.mem_map.mp hm
      obtain ⟨p, hp1, hp2⟩ := ha.2 r (hps ▸ hr')
      exact ⟨p, hp1, hp2⟩
    have hack : ∀ ps : List WProperty, w ∉ ackOf ps := by
      intro ps hm
      obtain ⟨r, _, rfl⟩ := List.mem_map.mp hm
      exact hd rfl
    have : ∃ p, dst.properties w.code = some p ∧ p.readAttr ≠ .Prohibited := by
      rw [hp, hs, hg] at hw
      unfold okMessage at hw
      simp only [] at hw
      rcases (isRequestByte_iff _).mp hr with e | e | e | e | e | e
      · simp [e, successByte] at h1
      · simp [e] at hw; exact absurd hw (hack _)
      · simp [e] at hw; exact key _ hw (by simp [readsOf, e])
      · simp [e] at hw; exact key _ hw (by simp [readsOf, e])
      · simp [e] at hw
        rcases hw with hw | hw
        · exact absurd hw (hack _)
        · exact key _ hw (by simp [readsOf, e])
      · simp [e] at hw; exact absurd hw (hack _)
    obtain ⟨p, hp1, hp2⟩ := this
    exact ⟨pre, dst, post, p, ht, hp1, hp2⟩

theorem targets_or_silent (n : Node S) (msg : Message) :
    (∃ pre dst post, Targets n msg pre dst post) ∨ ∀ o ∈ n.objects, o.code ≠ msg.deoj := by
  cases hf : findObject n.objects msg.deoj with
  | some dst =>
    obtain ⟨pre, post, h1, h2, h3⟩ := findObject_split hf
    exact Or.inl ⟨pre, dst, post, h1, h2, h3⟩
  | none => exact Or.inr (findObject_none_iff.mp hf)

/-- C32, modification: if the handlers leave the object alone, whatever message arrives, the list of
objects keeps its length, codes and attributes, and a property (other than a property map) whose data
changed is writable, and its new data fits its capacity, if it has one. -/
theorem C32_no_forbidden_write (b : Build) (ω : HashOrder) (ok : Nat → Bool) (n n' : Node S) (msg : Message)
    (outs : List Out) (hk : ∀ o ∈ n.objects, KeysOk o) (hh : ∀ h ∈ n.handlers, Passive h)
    (h : n.observe b ω ok msg = .ok (n', outs)) :
    n'.objects.length = n.objects.length ∧
    ∀ i (hi : i < n.objects.length) (hi' : i < n'.objects.length),
      n'.objects[i].code = n.objects[i].code ∧
      ∀ c, (n'.objects[i].properties c).map attrsOf = (n.objects[i].properties c).map attrsOf ∧
        ∀ p p', n.objects[i].properties c = some p → n'.objects[i].properties c = some p' →
          isMapCode c = false → p'.data ≠ p.data →
          p.writeAttr ≠ .Prohibited ∧ (p.capacity = 0 ∨ p'.data.length ≤ p.capacity) := by
  have hsame : n'.objects = n.objects → _ := fun heq => by
    refine (?_ : n'.objects.length = n.objects.length ∧
      ∀ i (hi : i < n.objects.length) (hi' : i < n'.objects.length),
      n'.objects[i].code = n.objects[i].code ∧
      ∀ c, (n'.objects[i].properties c).map attrsOf = (n.objects[i].properties c).map attrsOf ∧
        ∀ p p', n.objects[i].properties c = some p → n'.objects[i].properties c = some p' →
          isMapCode c = false → p'.data ≠ p.data →
          p.writeAttr ≠ .Prohibited ∧ (p.capacity = 0 ∨ p'.data.length ≤ p.capacity))
    rw [heq]
    refine ⟨rfl, fun i hi _ => ⟨rfl, fun c => ⟨rfl, ?_⟩⟩⟩
    intro p p' h1 h2 _ hne
    rw [h1] at h2
    simp only [Option.some.injEq] at h2
    exact absurd (congrArg Property.data h2.symm) hne
  rcases targets_or_silent n msg with ⟨pre, dst, post, ht⟩ | hno
  rotate_left
  · exact hsame (C25_silence b ω ok n n' msg outs h (Or.inr hno)).2.2.1
  cases hr : isRequestByte msg.esvByte with
  | false => exact hsame (C25_silence b ω ok n n' msg outs h (Or.inl hr)).2.2.1
  | true =>
    have hkd : KeysOk dst := hk dst (by rw [ht.split]; simp)
    obtain ⟨copy, app, hs, hid, _, hc⟩ := Node.observe_target ht hkd hr h
    rcases hc with ⟨_, hn, _⟩ | ⟨hacc, dst', hw, hk', hcode, hc⟩
    · exact hsame (by rw [hn, Node.updateTid_objects])
    · have hobj : n'.objects = pre ++ dst' :: post := by
        rcases hc with ⟨_, hn, _⟩ | ⟨_, _, hn, _⟩
        · rw [hn]
        · rw [hn, Node.updateTid_objects]
      clear hsame
      rw [hobj, ht.split]
      refine ⟨by simp, fun i hi hi' => ?_⟩
      by_cases hip : i = pre.length
      · subst hip
        simp only [List.getElem_append_right (Nat.le_refl _), Nat.sub_self, List.getElem_cons_zero]
        refine ⟨hcode, fun c => ⟨by rw [hw, Node.writeLoop_attrs, Node.copyBack_attrs], ?_⟩⟩
        intro p p' hp hp' hm hne
        rw [hw, Node.writeLoop_props, afterHandlers_passive hh,
          Node.copyBack_props (Object.keysOk_congr hs.symm hkd) (HashOrder.isOrder _), hp] at hp'
        simp only [Option.map_some, Option.some.injEq] at hp'
        rw [(hs c).1 hm, hp] at hp'
        simp only [] at hp'
        cases hl : lastWrite (writesOf msg) c with
        | none =>
          rw [hl] at hp'
          exact absurd (congrArg Property.data hp'.symm) hne
        | some d =>
          rw [hl] at hp'
          simp only [] at hp'
          obtain ⟨q, hq, h1, h2⟩ := hacc.1.1 _ (lastWrite_mem hl)
          simp only [] at hq h2
          rw [hp] at hq
          simp only [Option.some.injEq] at hq
          subst hq
          refine ⟨h1, ?_⟩
          rw [← hp']
          exact h2
      · have heq : (pre ++ dst' :: post)[i] = (pre ++ dst :: post)[i]'(by simpa using hi) := by
          rcases Nat.lt_or_gt_of_ne hip with hlt | hgt
          · rw [List.getElem_append_left hlt, List.getElem_append_left hlt]
          · rw [List.getElem_append_right (Nat.le_of_lt hgt), List.getElem_append_right (Nat.le_of_lt hgt)]
            obtain ⟨k, hk⟩ : ∃ k, i - pre.length = k + 1 := ⟨i - pre.length - 1, by omega⟩
            simp only [hk, List.getElem_cons_succ]
        rw [heq]
        refine ⟨rfl, fun c => ⟨rfl, ?_⟩⟩
        intro p p' h1 h2 _ hne
        rw [h1] at h2
        simp only [Option.some.injEq] at h2
        exact absurd (congrArg Property.data h2.symm) hne

/-- C32: the handler every node registers for itself leaves the object alone. -/
theorem C32_builtin_handler_passive : Passive (nodeHandler (S := S)) := nodeHandler_passive

/-- An object with a write-only property 0xB0 and a read-only property of capacity 2. -/
def exGuarded : Res Object :=
  Object.addAll .dev .ascending (Object.fromCode 0x029001)
    [{ exProp 0xB0 with readAttr := .Prohibited }, { exProp 0xB1 with writeAttr := .Prohibited },
     { exProp 0xB2 with capacity := 2 }]

example : ∃ o, exGuarded = .ok o ∧
    let n : Node Unit := ⟨exTransport, [o], 5, none, 0, [acceptAll], [], ()⟩
    (∃ r, n.observe .dev .ascending allOk ((exRequest .ReadRequest 7).addProperty ⟨0xB0, []⟩) = .ok r ∧
      (replies r.2).map (fun u => u.esvByte) = [0x52]) ∧
    (∃ r, n.observe .dev .ascending allOk ((exRequest .WriteRequest 7).addProperty ⟨0xB1, [1]⟩) = .ok r ∧
      (replies r.2).map (fun u => u.esvByte) = [0x50]) ∧
    (∃ r, n.observe .dev .ascending allOk ((exRequest .WriteRequest 7).addProperty ⟨0xB2, [1, 2, 3]⟩) =
        .ok r ∧ (replies r.2).map (fun u => u.esvByte) = [0x50]) ∧
    (∃ r, n.observe .dev .ascending allOk ((exRequest .WriteRequest 7).addProperty ⟨0xB2, [1, 2]⟩) =
        .ok r ∧ r.1.property 0x029001 0xB2 = some [1, 2]) := by
  refine ⟨_, rfl, ⟨_, rfl, ?_⟩, ⟨_, rfl, ?_⟩, ⟨_, rfl, ?_⟩, ⟨_, rfl, ?_⟩⟩ <;> decide +kernel

end Uecho
