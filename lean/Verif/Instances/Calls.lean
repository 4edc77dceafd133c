import Verif.Instances.Post
import Verif.Props.EndToEnd
import Verif.Props.Interfaces
import Verif.Props.Memory
/-!
# Instances of the theorems about transports, controllers, calls and crashes

Every example applies theorems to a concrete case, with all their hypotheses proved: none of them is vacuous.
-/
namespace Uecho
open Spec

def exGood : IfOutcome := ⟨.v4 1, fun _ => true, true⟩
theorem exGood_v4 : ∀ e ∈ [exGood], IsV4 e.addr := by
  intro e he; rw [List.mem_singleton.mp he]; exact ⟨1, rfl⟩

/-! ## Transport -/

/-- A stopped node with a node profile. -/
def exIdle : Node Unit :=
  ⟨Manager.new, [(exObj [0x80, 0xD5]).setCode 0x0EF001, ex3], 5, none, 0, [acceptAll], [.node], ()⟩

/-- C42: the same node starts, and fails to start with no multicast interface. -/
example : True := by
  obtain ⟨n', outs, h⟩ : ∃ n' outs, exIdle.start [exGood] [exGood] allOk = .ok (true, n', outs) := ⟨_, _, rfl⟩
  have := C42_start _ _ _ _ _ _ h
  have := C42_start_needs_profile _ _ _ _ _ _ h
  obtain ⟨n', outs, h⟩ : ∃ n' outs, exIdle.start [] [exGood] allOk = .ok (false, n', outs) := ⟨_, _, rfl⟩
  have := C42_failed_start _ _ _ _ _ _ h
  trivial
example := C43_start [exGood] [exGood] exGood_v4
example : True := by
  obtain ⟨r, m', h, _⟩ := C43_start [exGood] [exGood] exGood_v4
  have := C43_all_or_nothing _ _ _ _ _ h
  trivial
example := (C44_send allOk exTransport exTo Message.new).2.1 0 (by decide) rfl (by intro j hj; omega)
theorem harmless_of_running {bytes : List UInt8} {src : SocketAddr} (h : (recvLoop [.datagram bytes src]).2 = .running) :
    Harmless (.datagram bytes src) := by
  intro hp
  have := C46_end [] (.datagram bytes src) [] (by simp) (fun hh => hh hp)
  rw [List.nil_append] at this
  rw [this] at h
  simp at h

def exSearchFrame : List UInt8 := [0x10, 0x81, 0, 1, 5, 0xFF, 1, 0x0E, 0xF0, 1, 0x62, 1, 0xD6, 0]
theorem exHarmless : ∀ e ∈ [SocketEvent.datagram [1, 2, 3] exTo, .datagram exSearchFrame exTo, .timeout], Harmless e := by
  intro e he
  simp only [List.mem_cons, List.not_mem_nil, or_false] at he
  rcases he with rfl | rfl | rfl
  · exact harmless_of_running (by decide +kernel)
  · exact harmless_of_running (by decide +kernel)
  · trivial
example := C46_handed_partial _ exHarmless
example := C46_end _ .error [.timeout] exHarmless (fun h => h)
example := C63_has_interface [exGood] [exGood] exGood_v4 (.v4 1)
example := C63_start [⟨true, true, false, [(.v4 0x7F000001, 8)]⟩, ⟨true, false, false, [(.v6 1, 64), (.v4 0xC0A80102, 24)]⟩]
  [⟨.v4 0xC0A80102, fun _ => true, true⟩] [⟨.v4 0xC0A80102, fun _ => true, true⟩] (by decide) (by decide)

/-! ## Controllers -/

def exHostOps : List (HostOp Unit) :=
  [.call .controller (exCall true) (exAnswer ⟨.v4 1, 3610⟩ [1, 2, 0x90, 1]),
   .call .controller (exCall false) (exAnswer ⟨.v4 2, 3610⟩ [1, 2, 0x90, 5])]

theorem exHostOps_uuids : UuidsOk exHostOps := by
  intro r e m h
  simp only [exHostOps, List.mem_cons, HostOp.call.injEq, List.not_mem_nil, or_false] at h
  rcases h with ⟨-, rfl, -⟩ | ⟨-, rfl, -⟩ <;> intro i <;> rfl

theorem exHostRun : ∃ h, (Host.newController (exTestNode [acceptAll])).run .dev stdDb exHostOps = .ok (h, []) :=
  C47_never_panics .dev .ascending stdDb stdDb_eq (exTestNode [acceptAll])
    [(exCall true, exAnswer ⟨.v4 1, 3610⟩ [1, 2, 0x90, 1]), (exCall false, exAnswer ⟨.v4 2, 3610⟩ [1, 2, 0x90, 5])]
    (by
      intro x hx i
      simp only [List.mem_cons, List.not_mem_nil, or_false] at hx
      rcases hx with rfl | rfl <;> rfl)

example : True := by
  obtain ⟨h, hr⟩ := exHostRun
  have := C47_node_list _ _ _ stdDb_eq _ _ exHostOps_uuids _ _ hr .ascending
  have := C47_standard_properties _ _ _ stdDb_eq _ _ exHostOps_uuids _ _ hr
  have := C51_lost_search_result _ _ _ stdDb_eq _ _ exHostOps_uuids _ _ hr ⟨.v4 2, 3610⟩ (by
    intro e m hm ha
    simp only [exHostOps, List.mem_cons, HostOp.call.injEq, List.not_mem_nil, or_false] at hm
    rcases hm with ⟨-, rfl, rfl⟩ | ⟨-, rfl, -⟩
    · exact absurd ha (by decide)
    · rfl) .ascending
  trivial
example := C51_locked_controller .dev stdDb (exCall false) (exAnswer exTo [1, 2, 0x90, 1]) exController rfl allOk exRemote
example := C49_send allOk exController exRemote (exPost .ReadRequest)
example := C49_post allOk exController exRemote (exPost .ReadRequest)

def exHost : Host Unit := ⟨exTestNode [acceptAll], [⟨⟨.v4 1, 3610⟩, [Object.fromCode 0x029001]⟩], []⟩
theorem exTransport_threads : ThreadsOk exTransport := by
  intro s hs
  simp only [exTransport, List.cons_append, List.nil_append, List.mem_cons, List.not_mem_nil, or_false] at hs
  rcases hs with rfl | rfl | rfl <;> decide
/-- C48, C59. -/
example : True := by
  obtain ⟨h', hs⟩ : ∃ h', exHost.stop = .ok (true, h') := ⟨_, rfl⟩
  have := C48_fails .dev .ascending _ _ _ hs
  have := C48_stop_partial .dev .ascending _ _ _ hs
  have := (C48_stop_partial .dev .ascending _ _ _ hs).2 exTransport_threads
  obtain ⟨n', hd, _⟩ := C59_fails ⟨0x029001⟩ (exTestNode [acceptAll]) exTransport_threads
  have := C59_stop_partial _ _ _ hd exTransport_threads
  trivial

/-- C58: the controller asks for 0x80; the answer makes it forget what it knew. -/
example : True := by
  let rd := (exRequest .ReadRequest 0).addProperty ⟨0x80, []⟩
  let req := (exController.sendMessage allOk true exRemote rd).2.1
  obtain ⟨n', outs, h, hP⟩ := observed (exTestNode [acceptAll]) req
    (fun _ outs => (replies outs).any (fun u => u.esvByte == 0x72)) (by decide +kernel)
  obtain ⟨u, hu, hu'⟩ := any_reply hP
  have := C58_fails .dev .ascending stdDb stdDb_eq exController allOk exRemote rd (by decide) (by decide) req rfl
    .ascending allOk _ _ _ (exTestNode_keysOk _) h u hu (by simpa using hu') u rfl exController (exCall true) rfl (fun _ => rfl)
  trivial
example := C58_other_responses_partial .dev stdDb (exRequest .WriteResponse 7) exController (exCall true) (by decide)

/-! ## Discovery -/

/-- A new node, started. -/
theorem exStarted : ∃ n₀ n : Node Unit, ∃ outs, Node.new .dev stdDb (exUuids 1) (exUuids 2) .ascending () = .ok n₀ ∧
    n₀.run .dev [.start [exGood] [exGood] allOk] = .ok (n, outs) ∧ (txs (n.announce allOk).2.2).length = 1 := by
  obtain ⟨n₀, h1, hinv, _, hobs, _, htr, _⟩ := newNode_inv stdDb_eq (exUuids_length 1) (exUuids_length 2) .ascending ()
  obtain ⟨m', hm, hlen⟩ : ∃ m', Manager.new.start [exGood] [exGood] = .ok (true, m') ∧ m'.mcast.length = 1 := ⟨_, rfl, rfl⟩
  have hs : ∃ r, n₀.start [exGood] [exGood] allOk = .ok r ∧ r.2.1.transport.mcast.length = 1 := by
    have ha : ∀ n : Node Unit, (n.announce allOk).2.1.transport = n.transport := by
      intro n
      unfold Node.announce
      split
      · rfl
      · split
        · rfl
        · simp only [Node.notify, Node.updateTid_eq]
          split <;> rfl
    unfold Node.start Node.startTransport
    rw [htr]
    simp only [show Manager.new.isRunning = false from rfl, hm, Bool.not_false, if_true, Res.bind_ok, Bool.not_true]
    split
    · contradiction
    split <;> refine ⟨_, rfl, ?_⟩ <;> simp only [ha] <;> simp [Node.setObjectPropertiesByte, hobs, hlen]
  obtain ⟨r, hr, hl⟩ := hs
  have hrun : n₀.run .dev [.start [exGood] [exGood] allOk] = .ok (r.2.1, r.2.2) := by
    simp [Node.run, Node.step, hr]
  refine ⟨n₀, r.2.1, r.2.2, h1, hrun, ?_⟩
  have hp := (C22_profile_partial .dev .ascending stdDb stdDb_eq _ _ (exUuids_length 1) (exUuids_length 2) .ascending ()
    [.start [exGood] [exGood] allOk] (by intro op hop; rw [List.mem_singleton.mp hop]; trivial) n₀ _ _ h1 hrun).2 0xD5
  obtain ⟨np, p, hnp, hd⟩ : ∃ np p, findObject r.2.1.objects profileCode = some np ∧ np.findProperty 0xD5 = some p := by
    have hp := hp _ rfl
    unfold Node.property at hp
    grind [Object.findProperty]
  unfold Node.announce
  rw [show nodeProfileCode = profileCode from rfl, hnp]
  simp only [hd]
  unfold Node.notify
  have ht : (r.2.1.updateTid (Node.announceMessage np p)).2.transport = r.2.1.transport := by
    rw [Node.updateTid_eq]; split <;> rfl
  have h := C44_notify_partial allOk (r.2.1.updateTid (Node.announceMessage np p)).2.transport
    (r.2.1.updateTid (Node.announceMessage np p)).1
  have h := h.2.1 (h.1.mpr (fun _ _ => rfl))
  have hg : ∀ l : List Tx, txs (l.map Out.tx) = l := by intro l; induction l <;> simp_all [txs]
  simp only [txs, List.filterMap_cons]
  have := congrArg List.length ((hg _).trans h)
  rw [List.length_map, show _ = 1 from (congrArg (fun t : Manager => t.mcast.length) ht).trans hl] at this
  exact this

example : True := by
  obtain ⟨n₀, n, outs, h1, h2, h3⟩ := exStarted
  obtain ⟨t, ht⟩ := List.exists_mem_of_length_pos (l := txs (n.announce allOk).2.2) (by omega)
  have := C24_listed_without_devices_partial .dev .ascending stdDb stdDb_eq _ _ (exUuids_length 1) (exUuids_length 2)
    .ascending () _ (by intro op hop; rw [List.mem_singleton.mp hop]; trivial) n₀ n outs h1 h2 (by decide) (by simp [addedCodes])
    allOk t ht exTo
  trivial

/-- C34: one write-read request to a new node. -/
example : True := by
  obtain ⟨n₀, n, h1, h2⟩ := exGrown
  have := C34_fails_standard .dev .ascending stdDb stdDb_eq _ _ (exUuids_length 1) (exUuids_length 2) .ascending .ascending ()
    n₀ h1 allOk [9, 9] (((exRequest .WriteReadRequest 7).setDeoj 0x0EF001).addPropertySet ⟨0x81, [9, 9]⟩) (by decide)
    (by decide) (by decide) (by decide) (by decide)
  trivial

/-! ## Crashes -/

theorem exTestNode_sound (hs : List (Handler Unit)) : Sound .dev (exTestNode hs) := by
  refine ⟨?_, exTransport_threads⟩
  intro o ho
  rw [List.mem_singleton.mp ho]; exact Or.inr ex3_codesOk

theorem received_of {bytes : List UInt8} (h : (recvLoop [.datagram bytes exTo]).2 = .running)
    (hl : (recvLoop [.datagram bytes exTo]).1.length = 1) : ∃ m, Received m ∧ (recvLoop [.datagram bytes exTo]).1 = [m] := by
  obtain ⟨m, hm⟩ := List.length_eq_one_iff.mp hl
  exact ⟨m, ⟨bytes, exTo, Prod.ext hm h⟩, hm⟩

example : True := by
  obtain ⟨m, hm, hm'⟩ := received_of (bytes := exSearchFrame) (by decide +kernel) (by decide +kernel)
  have h5 : m.esvByte ≠ 0x5E := by
    have h := congrArg (fun l => l.map (fun m => m.esvByte)) hm'
    have h0 : ((recvLoop [.datagram exSearchFrame exTo]).1).map (fun m => m.esvByte) = [0x62] := by decide +kernel
    rw [h0] at h
    simp at h
    rw [← h]; decide
  have := C57_receive_panics_iff .dev .ascending allOk _ (exTestNode_sound [acceptAll]).objects m hm
  have := C57_no_panic_partial .dev .ascending stdDb stdDb_eq exHost (exTestNode_sound _)
    [.call .node (exCall true) m, .call .controller (exCall true) m, .stop, .start [exGood] [exGood] allOk]
    (by
      intro op hop
      simp only [List.mem_cons, List.not_mem_nil, or_false] at hop
      rcases hop with rfl | rfl | rfl | rfl
      · exact ⟨⟨hm, h5⟩, fun _ => rfl⟩
      · exact ⟨⟨hm, h5⟩, fun _ => rfl⟩
      · trivial
      · exact exGood_v4)
  have := C57_receiver_partial .dev .ascending stdDb stdDb_eq exHost (exTestNode_sound _) [.node, .controller, .user 3]
    (fun _ _ => exCall true) (fun _ _ _ => rfl) _ exHarmless (by decide +kernel)
  trivial

/-! ## Remote calls -/

def exWriteCall : Message := (exPost .WriteRequestResponseRequired).addProperty ⟨0xB0, [0x42]⟩
theorem ex3_valid (hs : List (Handler Unit)) : ∀ o ∈ (exTestNode hs).objects, ValidObject .dev o := (exTestNode_sound hs).objects

/-- C64, with a device that accepts the write. -/
example : True := by
  obtain ⟨t, ht⟩ : ∃ t, t ∈ txs (exController.postMessage allOk exRemote exWriteCall).2.2.2 :=
    List.exists_mem_of_length_pos (by decide +kernel)
  have hl : ∀ t ∈ txs (exController.postMessage allOk exRemote exWriteCall).2.2.2, t.bytes.length ≤ 1024 := by decide +kernel
  have := C64_call_partial .dev exController allOk exRemote exWriteCall (by decide) (by decide) (by decide) (by decide)
    (by decide) (by decide) t ht (hl t ht) (exTestNode [acceptAll]) (exTestNode_keysOk _) (ex3_valid _) acceptAll_passive
    [] [] ex3 (exTargets _ _ (by decide))
    (fun copy _ _ => ⟨(Node.validRequest_iff ex3 exWriteCall (by decide)).mp (by decide +kernel),
      Or.inr (Or.inl ⟨rfl, trivial⟩)⟩) exTo exTo .ascending allOk
  trivial

def exReadCall : Message := (exPost .ReadRequest).addProperty ⟨0xE0, []⟩
def exWRCall : Message := ((exPost .WriteReadRequest).addPropertySet ⟨0xB0, [0x42]⟩).addPropertyGet ⟨0xE0, []⟩

/-- C64, refused. -/
example : True := by
  obtain ⟨t, ht⟩ : ∃ t, t ∈ txs (exController.postMessage allOk exRemote exReadCall).2.2.2 :=
    List.exists_mem_of_length_pos (by decide +kernel)
  have hl : ∀ t ∈ txs (exController.postMessage allOk exRemote exReadCall).2.2.2, t.bytes.length ≤ 1024 := by decide +kernel
  have := C64_refused_partial .dev exController allOk exRemote exReadCall (by decide) (by decide) (by decide) (by decide)
    (by decide) t ht (hl t ht) (exTestNode [acceptAll]) (exTestNode_keysOk _) (ex3_valid _) [] [] ex3 (exTargets _ _ (by decide))
    (fun h => absurd ((Node.validRequest_iff ex3 exReadCall (by decide)).mpr h) (by decide +kernel)) exTo exTo .ascending allOk
  obtain ⟨t, ht⟩ : ∃ t, t ∈ txs (exController.postMessage allOk exRemote exWRCall).2.2.2 :=
    List.exists_mem_of_length_pos (by decide +kernel)
  have hl : ∀ t ∈ txs (exController.postMessage allOk exRemote exWRCall).2.2.2, t.bytes.length ≤ 1024 := by decide +kernel
  have := C64_fails_write_read .dev exController allOk exRemote exWRCall (by decide) (by decide) (by decide)
    t ht (hl t ht) (exTestNode [acceptAll]) (exTestNode_keysOk _) (ex3_valid _) [] [] ex3 (exTargets _ _ (by decide))
    (fun h => absurd ((Node.validRequest_iff ex3 exWRCall (by decide)).mpr h) (by decide +kernel)) (by decide) exTo exTo
    .ascending allOk
  trivial

/-- C65. -/
example : True := by
  have := C65_announce (S' := Unit) allOk (exTestNode [acceptAll]) ex3 (exProp 0xB0) (by decide)
  obtain ⟨t, ht⟩ : ∃ t, t ∈ txs ((exTestNode [acceptAll]).announceProperty allOk ex3 (exProp 0xB0)).2.2 :=
    List.exists_mem_of_length_pos (by decide +kernel)
  have := C65_controller_forgets (S' := Unit) .dev .ascending stdDb stdDb_eq allOk (exTestNode [acceptAll]) ex3 (exProp 0xB0)
    (by decide) (by decide) t ht exTo
  trivial

end Uecho
