import Verif.Instances.Object
import Verif.Props.Handlers
import Verif.Props.Remote
import Verif.Props.History
import Verif.Props.MonoLight
/-!
# Instances of the theorems about requests

Every example applies theorems to a concrete case, with all their hypotheses proved: none of them is vacuous.
-/
namespace Uecho
open Spec

/-- The message is processed without panic, with an outcome of which `P` holds. -/
def seen {S : Type} (n : Node S) (msg : Message) (P : Node S → List Out → Bool) : Bool :=
  match n.observe .dev .ascending allOk msg with
  | .ok r => P r.1 r.2
  | .panic => false

/-- What happened to a message, read off by evaluation. -/
theorem observed {S : Type} (n : Node S) (msg : Message) (P : Node S → List Out → Bool)
    (h : seen n msg P = true) :
    ∃ n' outs, n.observe .dev .ascending allOk msg = .ok (n', outs) ∧ P n' outs = true := by
  unfold seen at h
  split at h
  · rename_i r hr; exact ⟨r.1, r.2, hr, h⟩
  · simp at h

theorem ran {S : Type} (n : Node S) (ops : List (Op S)) (P : Node S → List Out → Bool)
    (h : (match n.run .dev ops with | .ok r => P r.1 r.2 | .panic => false) = true) :
    ∃ n' outs, n.run .dev ops = .ok (n', outs) ∧ P n' outs = true := by
  split at h
  · rename_i r hr; exact ⟨r.1, r.2, hr, h⟩
  · simp at h

theorem any_reply {outs : List Out} {p : Message → Bool} (h : (replies outs).any p = true) :
    ∃ u ∈ replies outs, p u = true := List.any_eq_true.mp h

theorem exTestNode_keysOk (hs : List (Handler Unit)) : ∀ o ∈ (exTestNode hs).objects, KeysOk o := by
  intro o ho
  rw [List.mem_singleton.mp ho]; exact ex3_keysOk

def exReadReq : Message := ((exRequest .ReadRequest 7).addProperty ⟨0xB0, []⟩).addProperty ⟨0x80, []⟩
def exWriteReq : Message := ((exRequest .WriteRequestResponseRequired 7).addProperty ⟨0xB0, [0x41]⟩).addProperty ⟨0x80, [0x31]⟩
def exWRReq : Message :=
  ((exRequest .WriteReadRequest 7).addPropertySet ⟨0xB0, [0x41]⟩).addPropertyGet ⟨0x80, []⟩
/-- A write of a property the object does not have. -/
def exBadReq : Message := ((exRequest .WriteRequestResponseRequired 7).addProperty ⟨0xB0, [0x41]⟩).addProperty ⟨0xB1, [1]⟩
def exBadWRReq : Message := (exRequest .WriteReadRequest 7).addPropertySet ⟨0xB1, [0x41]⟩

theorem exTargets (hs : List (Handler Unit)) (msg : Message) (h : msg.deoj = 0x029001) :
    Targets (exTestNode hs) msg [] ex3 [] := by
  refine ⟨rfl, by simp, ?_⟩
  rw [h]; decide +kernel

theorem acceptAll_passive : ∀ h ∈ [acceptAll], Passive h := by
  intro h hm; rw [List.mem_singleton.mp hm]; exact fun _ _ _ _ => rfl

theorem exReadReq_allowed : Allowed ex3 exReadReq :=
  (Node.validRequest_iff ex3 exReadReq (by decide)).mp (by decide +kernel)
theorem exWRReq_allowed : Allowed ex3 exWRReq :=
  (Node.validRequest_iff ex3 exWRReq (by decide)).mp (by decide +kernel)
theorem exBadReq_refused : ¬ Allowed ex3 exBadReq := fun h =>
  absurd ((Node.validRequest_iff ex3 exBadReq (by decide)).mpr h) (by decide +kernel)

/-- C25: a response, and a request to an object the node does not have. -/
example : True := by
  obtain ⟨n', outs, h, _⟩ := observed (exTestNode [acceptAll]) ((exRequest .ReadResponse 7).addProperty ⟨0xB0, [1]⟩)
    (fun _ _ => true) (by decide +kernel)
  have := C25_silence _ _ _ _ _ _ _ h (Or.inl (by decide))
  obtain ⟨n', outs, h, _⟩ := observed (exTestNode [acceptAll]) (exReadReq.setDeoj 0x029002) (fun _ _ => true) (by decide +kernel)
  have := C25_silence _ _ _ _ _ _ _ h (Or.inr (by
    intro o ho; rw [List.mem_singleton.mp ho]; decide +kernel))
  trivial

/-- An accepted read. -/
example : True := by
  obtain ⟨n', outs, h, hP⟩ := observed (exTestNode [acceptAll]) exReadReq
    (fun _ outs => (replies outs).any (fun u => !isErrorByte u.esvByte && u.properties.contains ⟨0xB0, [0x30]⟩) &&
      (txs outs).length == 1 && (replies outs).all (fun u => u.esvByte != 0x5E)) (by decide +kernel)
  simp only [Bool.and_eq_true] at hP
  obtain ⟨u, hu, hu'⟩ := any_reply hP.1.1
  simp only [Bool.and_eq_true, Bool.not_eq_true', List.contains_eq_mem, decide_eq_true_eq] at hu'
  obtain ⟨t, ht⟩ := List.exists_mem_of_length_pos (l := txs outs) (by have := hP.1.2; simp at this; omega)
  have hk := exTestNode_keysOk [acceptAll]
  have := C26_accept_iff _ _ _ _ _ _ _ [] [] ex3 (exTargets _ _ (by decide)) ex3_keysOk (by decide) h
  have := C26_accepting_handler _ _ _ _ _ _ _ [] [] ex3 (exTargets _ _ (by decide)) ex3_keysOk (by decide) exReadReq_allowed
    ⟨acceptAll, by simp [exTestNode], fun _ _ _ => rfl⟩ h
  have := C28_header _ _ _ _ _ _ _ hk h (by decide) t ht
  have := C28_correlation_partial _ _ _ _ _ _ _ hk h (by decide) (by
    have := hP.2
    simpa using this) t ht
  have := C29_read_returns_data _ _ _ _ _ _ _ hk h u hu hu'.1
  have := C32_no_disclosure _ _ _ _ _ _ _ hk h u hu ⟨0xB0, [0x30]⟩ (by simp [hu'.2]) (by simp)
  have := C36_one_routed_reply _ _ _ _ _ _ _ hk h
  have := C36_reply_transmitted _ _ _ _ _ _ hk (by decide) h u hu
  have := C67_app_state _ _ _ _ _ _ _ hk h
  trivial

/-- An accepted write. -/
example : True := by
  obtain ⟨n', outs, h, hP⟩ := observed (exTestNode [acceptAll]) exWriteReq
    (fun n outs => (replies outs).all (fun u => !isErrorByte u.esvByte) && (n.property 0x029001 0xB0 == some [0x41]))
    (by decide +kernel)
  simp only [Bool.and_eq_true] at hP
  have hk := exTestNode_keysOk [acceptAll]
  have hne : ∀ u ∈ replies outs, isErrorByte u.esvByte = false := by simpa using hP.1
  have := C30_accepted_write _ _ _ _ _ _ _ [] [] ex3 (exTargets _ _ (by decide)) ex3_keysOk (by decide)
    (by intro x hx; rw [List.mem_singleton.mp hx]; exact fun _ _ _ _ h => h) h hne
  have := C30_passive_handlers _ _ _ _ _ _ _ [] [] ex3 (exTargets _ _ (by decide)) ex3_keysOk (by decide)
    acceptAll_passive h hne
  have := C32_no_forbidden_write _ _ _ _ _ _ _ hk acceptAll_passive h
  have hch : n'.objects ≠ (exTestNode [acceptAll]).objects := by
    intro e
    have h1 := hP.2
    simp only [Node.property, e] at h1
    revert h1
    decide +kernel
  have := C33_handler_approval_partial _ _ _ _ _ _ _ hk (by simp [exTestNode]) h (by decide) hch
  trivial

/-- Refused requests. -/
example : True := by
  have hk := exTestNode_keysOk [acceptAll]
  obtain ⟨n', outs, h, hP⟩ := observed (exTestNode [acceptAll]) exBadReq
    (fun _ outs => (replies outs).any (fun u => isErrorByte u.esvByte)) (by decide +kernel)
  obtain ⟨u, hu, hu'⟩ := any_reply hP
  have := C27_error_echo_partial _ _ _ _ _ _ _ hk h u hu hu' (by decide) (by decide)
  have := C31_error_changes_nothing _ _ _ _ _ _ _ hk h u hu hu'
  have := C31_all_or_nothing _ _ _ _ _ _ _ [] [] ex3 (exTargets _ _ (by decide)) ex3_keysOk (by decide) exBadReq_refused h
  obtain ⟨n', outs, h, hP⟩ := observed (exTestNode [acceptAll]) exBadWRReq
    (fun _ outs => (replies outs).any (fun u => isErrorByte u.esvByte)) (by decide +kernel)
  obtain ⟨u, hu, hu'⟩ := any_reply hP
  have := C27_write_read_error_undecodable _ _ _ _ _ _ _ hk h u hu hu' (by decide) (by decide)
  obtain ⟨n', outs, h, hP⟩ := observed (exTestNode [nodeHandler]) exReadReq (fun _ _ => true) (by decide +kernel)
  have := C26_builtin_handler_only _ _ _ _ _ _ _ [] [] ex3 (exTargets _ _ (by decide)) ex3_keysOk (by decide) rfl (by decide)
    (by decide) h
  trivial

/-- A write-read request on a node whose handlers refuse everything. -/
example : True := by
  obtain ⟨n', outs, h, _⟩ := observed (exTestNode [refuseAll]) exWRReq (fun _ _ => true) (by decide +kernel)
  have := C33_write_read_bypasses_handlers _ _ _ _ _ _ _ [] [] ex3 (exTargets _ _ (by decide)) ex3_keysOk (by decide) rfl
    exWRReq_allowed (by intro x hx; rw [List.mem_singleton.mp hx]; exact fun _ _ _ _ => rfl) h
  trivial
example := C33_received_write_read (exWR.bytes ++ [9]) _ rfl (by decide)

/-! ## Histories -/

def exArrivals : List Arrival :=
  [⟨(exRequest .WriteRequest 7).addProperty ⟨0xB0, [0x41]⟩, true, .ascending, allOk⟩,
   ⟨(exRequest .WriteRequest 8).addProperty ⟨0xB0, [0x42]⟩, false, .ascending, allOk⟩,
   ⟨(exRequest .WriteRequest 9).addProperty ⟨0x80, [0x31]⟩, true, .ascending, allOk⟩]

theorem ex3_found (hs : List (Handler Unit)) : findObject (exTestNode hs).objects ex3.code = some ex3 := by
  simp [findObject, exTestNode]

example : True := by
  obtain ⟨n', outs, h, _⟩ := ran (exTestNode [nodeHandler]) (arrivals exArrivals) (fun _ _ => true) (by decide +kernel)
  have := C34_remote_immutable_partial _ _ _ exArrivals _ (exTestNode_keysOk _) rfl (by decide +kernel) h
  trivial

theorem exJudges : (∀ h ∈ [nodeHandler, onlyB0], Passive h) ∧ ∀ h ∈ [nodeHandler, onlyB0], Stateless h := by
  constructor <;>
  · intro h hm
    simp only [List.mem_cons, List.not_mem_nil, or_false] at hm
    rcases hm with rfl | rfl
    · first | exact nodeHandler_passive | exact nodeHandler_stateless
    · first | exact fun _ _ _ _ => rfl | exact fun _ _ _ _ _ _ _ _ => rfl

example : True := by
  obtain ⟨n₁, outs₁, h₁, hP⟩ := ran (exTestNode [nodeHandler, onlyB0]) (arrivals exArrivals)
    (fun n _ => seen n exReadReq (fun _ _ => true)) (by decide +kernel)
  obtain ⟨n', outs, h, _⟩ := observed n₁ exReadReq (fun _ _ => true) hP
  have := C35_judged_values _ _ _ exArrivals _ ex3 (exTestNode_keysOk _) (ex3_found _) exJudges.1 exJudges.2 h₁ 0xB0 (by decide)
  have := C35_judged_replies _ _ _ _ _ _ exArrivals _ _ ex3 exReadReq (exTestNode_keysOk _) (ex3_found _) exJudges.1 exJudges.2
    h₁ h (by decide) (by decide +kernel)
  trivial

example : True := by
  obtain ⟨n₁, outs₁, h₁, hP⟩ := ran (exTestNode [acceptAll]) (arrivals exArrivals)
    (fun n _ => seen n exReadReq (fun _ _ => true)) (by decide +kernel)
  obtain ⟨n', outs, h, _⟩ := observed n₁ exReadReq (fun _ _ => true) hP
  have := C35_values _ _ _ exArrivals _ ex3 (exTestNode_keysOk _) (ex3_found _) acceptAll_passive
    ⟨acceptAll, by simp [exTestNode], fun _ _ _ _ => rfl⟩ h₁ 0xB0 (by decide)
  have := C35_replies _ _ _ _ _ _ exArrivals _ _ ex3 exReadReq (exTestNode_keysOk _) (ex3_found _) acceptAll_passive
    ⟨acceptAll, by simp [exTestNode], fun _ _ _ _ => rfl⟩ h₁ h (by decide) (by decide +kernel)
  trivial

/-- A node with a recording handler that refuses everything. -/
def exRecorded : Node (List HandlerCall) :=
  ⟨exTransport, [ex3], 5, none, 0, [nodeHandler, recorder (fun _ _ _ => false)], [], []⟩

example : True := by
  have hk : ∀ o ∈ exRecorded.objects, KeysOk o := by
    intro o ho
    rw [List.mem_singleton.mp ho]; exact ex3_keysOk
  have hq : ∀ h ∈ [nodeHandler] ++ ([] : List (Handler (List HandlerCall))), Quiet h := by
    intro h hm
    rw [List.append_nil] at hm
    rw [List.mem_singleton.mp hm]; exact nodeHandler_quiet
  have hp : ∀ h ∈ ([nodeHandler] : List (Handler (List HandlerCall))), Passive h := by
    intro h hm
    rw [List.mem_singleton.mp hm]; exact nodeHandler_passive
  obtain ⟨n', outs, h, _⟩ := observed exRecorded exWriteReq (fun _ _ => true) (by decide +kernel)
  have := C67_calls _ _ _ _ _ _ _ hk [nodeHandler] [] (fun _ _ _ => false) rfl hq hp h
  obtain ⟨n', outs, h, _⟩ := ran exRecorded (arrivals exArrivals) (fun _ _ => true) (by decide +kernel)
  have := C67_calls_history _ _ _ exArrivals _ hk [nodeHandler] [] (fun _ _ _ => false) rfl hq hp h
  trivial

end Uecho
