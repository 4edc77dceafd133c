import Verif.Instances.Request
import Verif.Props.Post
/-!
# Instances of the theorems about transaction identifiers and posted requests

Every example applies theorems to a concrete case, with all their hypotheses proved: none of them is vacuous.
-/
namespace Uecho
open Spec

def exTo : SocketAddr := ⟨.v4 1, port⟩
def exResponse (tid : UInt16) (v : UInt8) : Message := (exRequest .ReadResponse tid).addProperty ⟨0xB0, [v]⟩

/-- C37, C38, C39: a history with two automatic identifiers, an explicit one, a post and two responses. -/
example : True := by
  obtain ⟨n', outs, h, hP⟩ := ran (exTestNode [acceptAll])
    [.send exTo Message.new allOk, .notify (Message.new.setTid 77) allOk, .post exTo Message.new allOk,
     .receive (exResponse 7 1) true .ascending allOk, .receive (exResponse 7 2) true .ascending allOk]
    (fun _ outs => autoTids outs == [6, 7] && (deliveries outs).length == 1) (by decide +kernel)
  simp only [Bool.and_eq_true, beq_iff_eq] at hP
  have := C37_consecutive _ _ _ _ _ h 0 6 (by rw [hP.1]; rfl)
  have := C37_distinct_in_window _ _ _ _ _ h 0 1 (by decide) (by decide) 6 7 (by rw [hP.1]; rfl) (by rw [hP.1]; rfl)
  have := C38_explicit_tids _ _ _ _ _ h
  have := C39_at_most_one _ _ _ _ _ rfl h
  obtain ⟨⟨ch, m⟩, hm⟩ := List.exists_mem_of_length_pos (l := deliveries outs) (by omega)
  have := this.2 ch m hm
  trivial
example := C37_wraps_to_zero { exTestNode [acceptAll] with lastTid := 65535 } rfl allOk exTo Message.new rfl

/-- C39: a post, then a message sent by the same node; the response to the second is delivered to the first. -/
example : True := by
  obtain ⟨n', outs, h, _⟩ := observed
    (((exTestNode [acceptAll]).postMessage allOk exTo Message.new).2.2.1.sendMessage allOk exTo Message.new).2.2.1
    (exResponse 7 1) (fun _ _ => true) (by decide +kernel)
  have := C39_may_answer_other_request _ _ allOk allOk _ (exTestNode [acceptAll]) exTo exTo Message.new Message.new rfl
    (exResponse 7 1) (by decide) (by decide +kernel) _ _ h
  trivial

/-- C40: between the post and its response a request and a response to something else arrive. -/
example : True := by
  let mid : List (Op Unit) := [.receive exReadReq true .ascending allOk, .receive (exResponse 8 2) true .ascending allOk]
  obtain ⟨n₁, o₁, h₁, hP⟩ := ran ((exTestNode [acceptAll]).postMessage allOk exTo Message.new).2.2.1 mid
    (fun n outs => seen n (exResponse 6 1) (fun _ _ => true) && autoTids outs == []) (by decide +kernel)
  simp only [Bool.and_eq_true, beq_iff_eq] at hP
  obtain ⟨n', outs, h, _⟩ := observed n₁ (exResponse 6 1) (fun _ _ => true) hP.1
  have := C40_delivered_partial .dev (exTestNode [acceptAll]) n₁ n' exTo Message.new allOk allOk rfl mid o₁ outs h₁
    (by intro op hop; simp only [mid, List.mem_cons, List.not_mem_nil, or_false] at hop; rcases hop with rfl | rfl <;> nofun)
    hP.2
    (by
      intro msg ω ok'' hop
      simp only [mid, List.mem_cons, List.not_mem_nil, or_false, Op.receive.injEq] at hop
      rcases hop with ⟨rfl, -⟩ | ⟨rfl, -⟩
      · left; decide
      · right; decide)
    (exResponse 6 1) .ascending (by decide) (by decide +kernel) (by decide) (by decide) (by decide) h
  trivial

/-- C40: a request with an identifier of its own gets no response delivered. -/
example : True := by
  obtain ⟨n', outs, h, _⟩ := observed ((exTestNode [acceptAll]).postMessage allOk exTo (Message.new.setTid 77)).2.2.1
    (exResponse 77 1) (fun _ _ => true) (by decide +kernel)
  have := C40_explicit_tid_fails _ _ _ _ exTo (Message.new.setTid 77) allOk _ (by decide) (by decide) (exResponse 77 1)
    (by decide +kernel) _ h
  trivial

/-- C40: a request with TID 0 is answered between the post and its response. -/
example : True := by
  let mid : List (Op Unit) := [.receive (exReadReq.setTid 0) true .ascending allOk]
  obtain ⟨n₁, o₁, h₁, hP⟩ := ran ((exTestNode [acceptAll]).postMessage allOk exTo Message.new).2.2.1 mid
    (fun n outs => seen n (exResponse 6 1) (fun _ _ => true) && (autoTids outs).length == 1) (by decide +kernel)
  simp only [Bool.and_eq_true, beq_iff_eq] at hP
  obtain ⟨n', outs, h, _⟩ := observed n₁ (exResponse 6 1) (fun _ _ => true) hP.1
  have := C40_tid_zero_request_fails _ _ _ _ _ exTo Message.new allOk _ rfl mid _ _ h₁ hP.2 (exResponse 6 1)
    (by decide +kernel) h
  trivial

example := C40_write_read_error_panics .dev .ascending allOk (exTestNode [acceptAll])
  ((exRequest .WriteReadRequestError 5).addPropertySet ⟨0xB0, [1]⟩) (by decide) (by decide) (by decide) (by decide)

/-- C41. -/
example : True := by
  obtain ⟨n₁, o₁, h₁, hP⟩ := ran ((exTestNode [acceptAll]).postMessage allOk exTo Message.new).2.2.1
    [.receive exReadReq true .ascending allOk]
    (fun n _ => match (n.postMessage allOk exTo Message.new).2.2.1.run .dev
      [.receive (exResponse 6 1) true .ascending allOk, .receive (exResponse 7 2) true .ascending allOk] with
      | .ok r => (deliveries r.2).length == 1
      | .panic => false) (by decide +kernel)
  split at hP
  · rename_i r hr
    have := C41_superseded .dev _ _ _ exTo exTo Message.new Message.new allOk allOk _ _ _ _ h₁ hr
    trivial
  · simp at hP

end Uecho
