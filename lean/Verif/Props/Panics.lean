import Verif.Spec.Panics
import Verif.Props.Faults
/-!
# C94: request handlers that panic
-/
namespace Uecho
open Spec
variable {S : Type}

/-! ## Examples used below -/

/-- A handler that panics on property 0xB0 and accepts everything else; it counts its calls. -/
def touchy : PHandler Nat := fun s o _ p => if p.code = 0xB0 then .panics (s + 1) else .returns true o (s + 1)

/-- A handler that accepts everything. -/
def placid : PHandler Nat := fun s o _ _ => .returns true o (s + 1)

/-- Handler object 0 is `touchy`, the others are `placid`. -/
def exHandlers : Handlers Nat := ⟨fun k => if k = 0 then touchy else placid, fun _ => false, 0⟩

/-- The node of `exNode` with the given handler objects. -/
def exPNode (refs : List HandlerRef) : Res PNode := do
  let n ← exNode []
  pure ⟨n, refs⟩

/-- Two nodes (0 and 1) with the given handler objects (and others without any). -/
def exProcess (refs₀ refs₁ : List HandlerRef) : Res (Process Nat) := do
  let a ← exPNode refs₀
  let c ← exPNode refs₁
  let e ← exPNode []
  pure ⟨fun i => if i = 0 then a else if i = 1 then c else e, fun _ => false, exHandlers⟩

/-! ## Asking the handlers -/

theorem call_some {H H' : Handlers S} {r : HandlerRef} {o o' : Object} {esv : ESV} {p : WProperty} {a : Bool}
    (h : H.call r o esv p = (some (a, o'), H')) :
    tamed H r H.app o esv p = (a, o', H'.app) ∧ H'.code = H.code ∧ H'.poisoned = H.poisoned := by
  cases r with
  | builtin =>
    simp only [Handlers.call, Prod.mk.injEq, Option.some.injEq] at h
    obtain ⟨⟨rfl, rfl⟩, rfl⟩ := h
    refine ⟨?_, rfl, rfl⟩
    simp only [tamed, nodeHandler]
    split
    · rfl
    · split
      · split <;> rfl
      · split <;> rfl
      · rfl
  | user k =>
    simp only [Handlers.call] at h
    split at h
    · simp at h
    · split at h
      · rename_i hc
        simp only [Prod.mk.injEq, Option.some.injEq] at h
        obtain ⟨⟨rfl, rfl⟩, rfl⟩ := h
        exact ⟨by simp only [tamed, tame, hc], rfl, rfl⟩
      · simp at h

/-- Why a handler object ended a call with a panic. -/
structure Blew (H H' : Handlers S) (refs : List HandlerRef) (esv : ESV) (ps : List WProperty) : Prop where
  code : H'.code = H.code
  who : ∃ k, HandlerRef.user k ∈ refs ∧ H'.poisoned k = true ∧ (∀ k', k' ≠ k → H'.poisoned k' = H.poisoned k') ∧
    (H.poisoned k = true ∨ ∃ s o p s', p ∈ ps ∧ H.code k s o esv p = .panics s' ∧ H'.app = s')

theorem call_none {H H' : Handlers S} {r : HandlerRef} {o : Object} {esv : ESV} {p : WProperty} {ps : List WProperty}
    (h : H.call r o esv p = (none, H')) (hp : p ∈ ps) : Blew H H' [r] esv ps := by
  cases r with
  | builtin => simp [Handlers.call] at h
  | user k =>
    simp only [Handlers.call] at h
    split at h
    · rename_i hk
      simp only [Prod.mk.injEq, true_and] at h
      subst h
      exact ⟨rfl, k, by simp, hk, fun _ _ => rfl, Or.inl hk⟩
    · split at h
      · simp at h
      · rename_i s hc
        simp only [Prod.mk.injEq, true_and] at h
        subst h
        exact ⟨rfl, k, by simp, by simp, fun k' hk' => by simp [hk'], Or.inr ⟨_, _, _, _, hp, hc, rfl⟩⟩

theorem Blew.before {H H₁ H' : Handlers S} {refs refs' : List HandlerRef} {esv : ESV} {ps ps' : List WProperty}
    (h : Blew H₁ H' refs esv ps) (hc : H₁.code = H.code) (hp : H₁.poisoned = H.poisoned) (hr : ∀ r ∈ refs, r ∈ refs')
    (hps : ∀ p ∈ ps, p ∈ ps') : Blew H H' refs' esv ps' := by
  obtain ⟨h1, k, h2, h3, h4, h5⟩ := h
  refine ⟨h1.trans hc, k, hr _ h2, h3, by rw [← hp]; exact h4, ?_⟩
  rw [← hp, ← hc]
  exact h5.imp id (fun ⟨s, o, p, s', a, b, c⟩ => ⟨s, o, p, s', hps _ a, b, c⟩)

theorem askAll_spec (r : HandlerRef) (esv : ESV) (ps : List WProperty) : ∀ (H : Handlers S) (o : Object) (all : Bool),
    (∀ a o' H', H.askAll r esv o all ps = (some (a, o'), H') →
      ps.foldl (fun acc p =>
        let x := tamed H r acc.2.2 acc.2.1 esv p
        (if !x.1 then false else acc.1, x.2.1, x.2.2)) (all, o, H.app) = (a, o', H'.app) ∧
      H'.code = H.code ∧ H'.poisoned = H.poisoned) ∧
    (∀ H', H.askAll r esv o all ps = (none, H') → Blew H H' [r] esv ps) := by
  induction ps with
  | nil =>
    intro H o all
    refine ⟨?_, ?_⟩
    · intro a o' H' h
      simp only [Handlers.askAll, Prod.mk.injEq, Option.some.injEq] at h
      obtain ⟨⟨rfl, rfl⟩, rfl⟩ := h
      exact ⟨rfl, rfl, rfl⟩
    · intro H' h; simp [Handlers.askAll] at h
  | cons p ps ih =>
    intro H o all
    refine ⟨?_, ?_⟩
    · intro a o' H' h
      simp only [Handlers.askAll] at h
      split at h
      · simp at h
      · rename_i a₁ o₁ H₁ hc
        obtain ⟨h1, h2, h3⟩ := call_some hc
        obtain ⟨h4, h5, h6⟩ := (ih H₁ o₁ _).1 a o' H' h
        refine ⟨?_, h5.trans h2, h6.trans h3⟩
        rw [List.foldl_cons]
        have ht : tamed H₁ r = tamed H r := by cases r <;> simp [tamed, h2]
        rw [ht] at h4
        simp only [h1]
        exact h4
    · intro H' h
      simp only [Handlers.askAll] at h
      split at h
      · rename_i H₁ hc
        simp only [Prod.mk.injEq, true_and] at h
        subst h
        exact call_none hc (by simp)
      · rename_i a₁ o₁ H₁ hc
        obtain ⟨h1, h2, h3⟩ := call_some hc
        exact ((ih H₁ o₁ _).2 H' h).before h2 h3 (fun _ h => h) (fun p hp => by simp [hp])

theorem askEach_spec (msg : Message) (refs : List HandlerRef) : ∀ (H : Handlers S) (o : Object) (acc : Bool),
    (∀ a o' H', H.askEach msg o acc refs = (some (a, o'), H') →
      (refs.map (tamed H)).foldl (fun acc h =>
        let r := runHandler h msg.esv msg.properties acc.2.1 acc.2.2
        (if r.1 then true else acc.1, r.2.1, r.2.2)) (acc, o, H.app) = (a, o', H'.app) ∧
      H'.code = H.code ∧ H'.poisoned = H.poisoned) ∧
    (∀ H', H.askEach msg o acc refs = (none, H') → Blew H H' refs msg.esv msg.properties) := by
  induction refs with
  | nil =>
    intro H o acc
    refine ⟨?_, ?_⟩
    · intro a o' H' h
      simp only [Handlers.askEach, Prod.mk.injEq, Option.some.injEq] at h
      obtain ⟨⟨rfl, rfl⟩, rfl⟩ := h
      exact ⟨rfl, rfl, rfl⟩
    · intro H' h; simp [Handlers.askEach] at h
  | cons r rs ih =>
    intro H o acc
    refine ⟨?_, ?_⟩
    · intro a o' H' h
      simp only [Handlers.askEach] at h
      split at h
      · simp at h
      · rename_i a₁ o₁ H₁ hc
        obtain ⟨h1, h2, h3⟩ := (askAll_spec r msg.esv msg.properties H o true).1 _ _ _ hc
        obtain ⟨h4, h5, h6⟩ := (ih H₁ o₁ _).1 a o' H' h
        refine ⟨?_, h5.trans h2, h6.trans h3⟩
        rw [List.map_cons, List.foldl_cons]
        have ht : tamed H₁ = tamed H := by funext r; cases r <;> simp [tamed, h2]
        rw [ht] at h4
        have h7 : runHandler (tamed H r) msg.esv msg.properties o H.app = (a₁, o₁, H₁.app) := h1
        simp only [h7]
        exact h4
    · intro H' h
      simp only [Handlers.askEach] at h
      split at h
      · rename_i H₁ hc
        simp only [Prod.mk.injEq, true_and] at h
        subst h
        exact ((askAll_spec r msg.esv msg.properties H o true).2 _ hc).before rfl rfl (fun _ h => by simp_all) (fun p hp => hp)
      · rename_i a₁ o₁ H₁ hc
        obtain ⟨h1, h2, h3⟩ := (askAll_spec r msg.esv msg.properties H o true).1 _ _ _ hc
        exact ((ih H₁ o₁ _).2 H' h).before h2 h3 (fun r hr => by simp [hr]) (fun p hp => hp)

theorem requestReceived_spec (refs : List HandlerRef) (msg : Message) (H : Handlers S) (o : Object) :
    (∀ a o' H', H.requestReceived refs msg o = (some (a, o'), H') →
      Uecho.requestReceived (refs.map (tamed H)) msg o H.app = (a, o', H'.app) ∧
      H'.code = H.code ∧ H'.poisoned = H.poisoned) ∧
    (∀ H', H.requestReceived refs msg o = (none, H') → Blew H H' refs msg.esv msg.properties) := by
  unfold Handlers.requestReceived Uecho.requestReceived
  rw [List.length_map]
  split
  · refine ⟨?_, by simp⟩
    intro a o' H' h
    simp only [Prod.mk.injEq, Option.some.injEq] at h
    obtain ⟨⟨rfl, rfl⟩, rfl⟩ := h
    exact ⟨rfl, rfl, rfl⟩
  · exact askEach_spec msg refs H o false

theorem asNode_code {H H' : Handlers S} (h : H'.code = H.code) (n : PNode) :
    asNode H' n = { asNode H n with app := H'.app } := by
  have ht : tamed H' = tamed H := by funext r; cases r <;> simp [tamed, h]
  unfold asNode; rw [ht]

/-! ## A message -/

theorem messageReceived_returns (b : Build) (ω : HashOrder) (H : Handlers S) (n : PNode) (req : Message)
    (r : Option Message) (h : (PNode.messageReceived b ω H n req).result = some r) :
    (asNode H n).messageReceived b ω req = .ok (r, asNode (PNode.messageReceived b ω H n req).handlers
      { n with node := (PNode.messageReceived b ω H n req).node }) ∧
    (PNode.messageReceived b ω H n req).handlers.code = H.code ∧
    (PNode.messageReceived b ω H n req).handlers.poisoned = H.poisoned := by
  revert h
  unfold PNode.messageReceived Node.messageReceived
  have ho : (asNode H n).objects = n.node.objects := rfl
  rw [ho]
  by_cases h1 : req.esv.isResponse = true
  · simp only [if_pos h1]
    intro h; simp only [Option.some.injEq] at h; subst h; refine ⟨?_, ?_, ?_⟩ <;> first | rfl | trivial
  rw [if_neg h1, if_neg h1]
  cases hd : findObject n.node.objects req.deoj with
  | none => simp only []; intro h; simp only [Option.some.injEq] at h; subst h; refine ⟨?_, ?_, ?_⟩ <;> first | rfl | trivial
  | some dst =>
    simp only []
    by_cases h2 : (!req.esv.isRequest) = true
    · simp only [if_pos h2]; intro h; simp only [Option.some.injEq] at h; subst h; refine ⟨?_, ?_, ?_⟩ <;> first | rfl | trivial
    rw [if_neg h2, if_neg h2]
    by_cases h3 : (!Node.validRequest dst req) = true
    · simp only [if_pos h3]; intro h; simp only [Option.some.injEq] at h; subst h; refine ⟨?_, ?_, ?_⟩ <;> first | rfl | trivial
    rw [if_neg h3, if_neg h3]
    cases hc : dst.clone b (ω.sub 0) with
    | panic => simp
    | ok copy =>
      simp only [Res.bind_ok]
      cases hq : H.requestReceived n.refs req copy with
      | mk x H' =>
        cases x with
        | none => simp
        | some x =>
          obtain ⟨a, o'⟩ := x
          obtain ⟨g1, g2, g3⟩ := (requestReceived_spec n.refs req H copy).1 _ _ _ hq
          have g4 : requestReceived (asNode H n).handlers req copy (asNode H n).app = (a, o', H'.app) := g1
          cases a with
          | false =>
            simp only []
            intro h; simp only [Option.some.injEq] at h; subst h
            refine ⟨?_, g2, g3⟩
            rw [g4, asNode_code g2]; rfl
          | true =>
            simp only []
            rw [g4]
            simp only [Bool.not_true, Bool.false_eq_true, if_false]
            generalize hobjs : updateObject req.deoj (fun d => Node.writeRequestData d req)
              (updateObject req.deoj (fun d => Node.copyBack d (o'.values (ω.sub 1).here)) n.node.objects) = objs
            cases hf : findObject objs req.deoj with
            | none =>
              simp only []
              intro h; simp only [Option.some.injEq] at h; subst h
              rw [asNode_code g2]
              exact ⟨rfl, g2, g3⟩
            | some dst' =>
              simp only []
              intro h; simp only [Option.some.injEq] at h; subst h
              rw [asNode_code g2]
              exact ⟨rfl, g2, g3⟩

theorem messageReceived_panics (b : Build) (ω : HashOrder) (H : Handlers S) (n : PNode) (req : Message)
    (h : (PNode.messageReceived b ω H n req).result = none) :
    (PNode.messageReceived b ω H n req).node = n.node ∧ req.esv.isRequest = true ∧
    ((asNode H n).messageReceived b ω req = .panic ∧ (PNode.messageReceived b ω H n req).handlers = H ∨
     Asked n.node req ∧ Blew H (PNode.messageReceived b ω H n req).handlers n.refs req.esv req.properties) := by
  revert h
  unfold PNode.messageReceived Node.messageReceived
  have ho : (asNode H n).objects = n.node.objects := rfl
  rw [ho]
  by_cases h1 : req.esv.isResponse = true
  · simp only [if_pos h1]; simp
  rw [if_neg h1, if_neg h1]
  cases hd : findObject n.node.objects req.deoj with
  | none => simp
  | some dst =>
    simp only []
    by_cases h2 : (!req.esv.isRequest) = true
    · simp only [if_pos h2]; simp
    rw [if_neg h2, if_neg h2]
    by_cases h3 : (!Node.validRequest dst req) = true
    · simp only [if_pos h3]; simp
    rw [if_neg h3, if_neg h3]
    have hr : req.esv.isRequest = true := by simpa using h2
    cases hc : dst.clone b (ω.sub 0) with
    | panic => intro _; exact ⟨rfl, hr, Or.inl ⟨rfl, rfl⟩⟩
    | ok copy =>
      simp only [Res.bind_ok]
      cases hq : H.requestReceived n.refs req copy with
      | mk x H' =>
        cases x with
        | none =>
          intro _
          exact ⟨rfl, hr, Or.inr ⟨⟨dst, hd, hr, by simpa using h3⟩, (requestReceived_spec n.refs req H copy).2 _ hq⟩⟩
        | some x =>
          obtain ⟨a, o'⟩ := x
          cases a with
          | false => simp
          | true =>
            simp only []
            intro h
            exfalso
            split at h <;> simp at h

theorem observePost_asNode (H : Handlers S) (n : PNode) (msg : Message) :
    (asNode H n).observePost msg = (n.node.observePost msg).bind (fun p => .ok (asNode H { n with node := p.1 }, p.2)) := by
  unfold Node.observePost
  have h : (asNode H n).isLastMessageResponse msg = n.node.isLastMessageResponse msg := rfl
  rw [h]
  split
  · cases msg.clone with
    | panic => rfl
    | ok m => rfl
  · rfl

theorem sendMessage_asNode (ok : Nat → Bool) (H : Handlers S) (n : PNode) (to : SocketAddr) (msg : Message) :
    (asNode H n).sendMessage ok to msg =
      ((n.node.sendMessage ok to msg).1, (n.node.sendMessage ok to msg).2.1,
       asNode H { n with node := (n.node.sendMessage ok to msg).2.2.1 }, (n.node.sendMessage ok to msg).2.2.2) := by
  unfold Node.sendMessage Node.updateTid
  by_cases h : msg.hasTid = true
  · simp only [if_pos h]; rfl
  · simp only [if_neg h]
    unfold Node.nextTid
    by_cases h2 : (65535 : UInt16) ≤ n.node.lastTid
    · have h2' : (65535 : UInt16) ≤ (asNode H n).lastTid := h2
      simp only [if_pos h2, if_pos h2']; rfl
    · have h2' : ¬ (65535 : UInt16) ≤ (asNode H n).lastTid := h2
      simp only [if_neg h2, if_neg h2']; rfl

theorem notify_asNode (ok : Nat → Bool) (H : Handlers S) (n : PNode) (msg : Message) :
    (asNode H n).notify ok msg =
      ((n.node.notify ok msg).1, (n.node.notify ok msg).2.1,
       asNode H { n with node := (n.node.notify ok msg).2.2.1 }, (n.node.notify ok msg).2.2.2) := by
  unfold Node.notify Node.updateTid
  by_cases h : msg.hasTid = true
  · simp only [if_pos h]; rfl
  · simp only [if_neg h]
    unfold Node.nextTid
    by_cases h2 : (65535 : UInt16) ≤ n.node.lastTid
    · have h2' : (65535 : UInt16) ≤ (asNode H n).lastTid := h2
      simp only [if_pos h2, if_pos h2']; rfl
    · have h2' : ¬ (65535 : UInt16) ≤ (asNode H n).lastTid := h2
      simp only [if_neg h2, if_neg h2']; rfl

/-- C94: a message whose processing does not panic has exactly the effect described by the model with handlers that
return (to which all the other theorems apply); the handlers are those that refuse where the real ones panic. -/
theorem C94_returns (b : Build) (ω : HashOrder) (ok : Nat → Bool) (H : Handlers S) (n : PNode) (msg : Message)
    (outs : List Out) (h : (n.observe b ω ok H msg).result = some outs) :
    (asNode H n).observe b ω ok msg =
      .ok (asNode (n.observe b ω ok H msg).handlers { n with node := (n.observe b ω ok H msg).node }, outs) ∧
    (n.observe b ω ok H msg).handlers.code = H.code ∧ (n.observe b ω ok H msg).handlers.poisoned = H.poisoned := by
  revert h
  unfold PNode.observe Node.observe
  rw [observePost_asNode]
  cases hp : n.node.observePost msg with
  | panic => simp
  | ok p =>
    simp only [Res.bind]
    have key := messageReceived_returns b ω H { n with node := p.1 } msg
    generalize PNode.messageReceived b ω H { n with node := p.1 } msg = l at key ⊢
    obtain ⟨r, nd, H'⟩ := l
    cases r with
    | none => simp
    | some r =>
      obtain ⟨k1, k2, k3⟩ := key r rfl
      simp only [] at k1 k2 k3
      cases r with
      | none =>
        simp only []
        intro h; simp only [Option.some.injEq] at h; subst h
        refine ⟨?_, k2, k3⟩; show ((asNode H { node := p.1, refs := n.refs }).messageReceived b ω msg).bind _ = _; rw [k1]; rfl
      | some res =>
        simp only []
        by_cases h1 : res.esv.isResponse = true
        · rw [if_pos h1]
          by_cases h2 : res.esv.isUnicastResponse = true
          · rw [if_pos h2]
            simp only []
            intro h; simp only [Option.some.injEq] at h; subst h
            refine ⟨?_, k2, k3⟩; show ((asNode H { node := p.1, refs := n.refs }).messageReceived b ω msg).bind _ = _; rw [k1]; simp only [Res.bind, if_pos h1, if_pos h2, sendMessage_asNode]; rfl
          · rw [if_neg h2]
            simp only []
            intro h; simp only [Option.some.injEq] at h; subst h
            refine ⟨?_, k2, k3⟩; show ((asNode H { node := p.1, refs := n.refs }).messageReceived b ω msg).bind _ = _; rw [k1]; simp only [Res.bind, if_pos h1, if_neg h2, notify_asNode]; rfl
        · rw [if_neg h1]
          simp only []
          intro h; simp only [Option.some.injEq] at h; subst h
          refine ⟨?_, k2, k3⟩; show ((asNode H { node := p.1, refs := n.refs }).messageReceived b ω msg).bind _ = _; rw [k1]; simp only [Res.bind, if_neg h1]; rfl

/-- A read of 0x80: both handlers return, and the value is answered. -/
example : ∃ n, exPNode [.builtin, .user 0] = .ok n ∧
    ∃ outs, (n.observe .dev .ascending allOk exHandlers ((exRequest .ReadRequest 7).addProperty ⟨0x80, []⟩)).result = some outs ∧
      (replies outs).map (·.esvByte) = [0x72] ∧
      (n.observe .dev .ascending allOk exHandlers ((exRequest .ReadRequest 7).addProperty ⟨0x80, []⟩)).handlers.app = 1 := by
  refine ⟨_, rfl, _, rfl, ?_, ?_⟩ <;> decide +kernel

theorem observe_panics (b : Build) (ω : HashOrder) (ok : Nat → Bool) (H : Handlers S) (n : PNode) (msg : Message)
    (h : (n.observe b ω ok H msg).result = none) :
    (n.observe b ω ok H msg).node = n.node ∧
    ((asNode H n).observe b ω ok msg = .panic ∧ (n.observe b ω ok H msg).handlers = H ∨
     Asked n.node msg ∧ Blew H (n.observe b ω ok H msg).handlers n.refs msg.esv msg.properties) := by
  revert h
  unfold PNode.observe
  have hob : (asNode H n).observe b ω ok msg = ((asNode H n).observePost msg).bind (fun p =>
    (p.1.messageReceived b ω msg).bind _) := rfl
  rw [observePost_asNode] at hob
  cases hp : n.node.observePost msg with
  | panic =>
    rw [hp] at hob
    intro _
    exact ⟨rfl, Or.inl ⟨hob, rfl⟩⟩
  | ok p =>
    rw [hp] at hob
    simp only []
    have key := messageReceived_panics b ω H { n with node := p.1 } msg
    generalize PNode.messageReceived b ω H { n with node := p.1 } msg = l at key ⊢
    obtain ⟨r, nd, H'⟩ := l
    cases r with
    | none =>
      intro _
      obtain ⟨k1, k2, k3⟩ := key rfl
      simp only [] at k1 k3
      have hn : n.node.isLastMessageResponse msg = false := by unfold Node.isLastMessageResponse; simp [k2]
      unfold Node.observePost at hp
      rw [hn] at hp
      simp only [Bool.false_eq_true, if_false, Res.ok.injEq] at hp
      subst hp
      refine ⟨k1, ?_⟩
      rcases k3 with ⟨k3, k4⟩ | k3
      · left
        refine ⟨?_, k4⟩
        simp only [Res.bind] at hob
        rw [k3] at hob; exact hob
      · exact Or.inr k3
    | some r =>
      intro h
      exfalso
      cases r with
      | none => simp at h
      | some res => simp only [] at h; split at h <;> try split at h
                    all_goals simp at h

/-- C94: a panic leaves no half-done request behind. If the processing of a message panics then the node is left exactly as
it was, nothing has been put out, and the reason is either one the model with handlers that return has as well
(`C57_receive_panics_iff`: an error response 0x5E), or: the message is a request that passed all checks, and a registered
handler object panicked, now or before; its mutex is poisoned, and no other. -/
theorem C94_panic (b : Build) (ω : HashOrder) (ok : Nat → Bool) (H : Handlers S) (n : PNode) (msg : Message)
    (h : (n.observe b ω ok H msg).result = none) :
    (n.observe b ω ok H msg).node = n.node ∧ (n.observe b ω ok H msg).handlers.code = H.code ∧
    ((asNode H n).observe b ω ok msg = .panic ∧ (n.observe b ω ok H msg).handlers = H ∨
     Asked n.node msg ∧ ∃ k, HandlerRef.user k ∈ n.refs ∧ (n.observe b ω ok H msg).handlers.poisoned k = true ∧
       (∀ k', k' ≠ k → (n.observe b ω ok H msg).handlers.poisoned k' = H.poisoned k') ∧
       (H.poisoned k = true ∨ ∃ s o p s', p ∈ msg.properties ∧ H.code k s o msg.esv p = .panics s' ∧
         (n.observe b ω ok H msg).handlers.app = s')) := by
  obtain ⟨h1, h2⟩ := observe_panics b ω ok H n msg h
  refine ⟨h1, ?_, ?_⟩
  · rcases h2 with ⟨_, h2⟩ | ⟨_, h2⟩
    · rw [h2]
    · exact h2.code
  · exact h2.imp id (fun h => ⟨h.1, h.2.who⟩)

/-- A write of 0x80 and 0xB0: the handler accepts the first property and panics on the second; 0x80 is not written. -/
example : ∃ n, exPNode [.builtin, .user 0] = .ok n ∧
    (n.observe .dev .ascending allOk exHandlers (((exRequest .WriteRequest 7).addProperty ⟨0x80, [0x31]⟩).addProperty
      ⟨0xB0, [1]⟩)).result = none ∧
    (n.observe .dev .ascending allOk exHandlers (((exRequest .WriteRequest 7).addProperty ⟨0x80, [0x31]⟩).addProperty
      ⟨0xB0, [1]⟩)).node.property 0x029001 0x80 = some [0x30] ∧
    (n.observe .dev .ascending allOk exHandlers (((exRequest .WriteRequest 7).addProperty ⟨0x80, [0x31]⟩).addProperty
      ⟨0xB0, [1]⟩)).handlers.poisoned 0 = true := by
  refine ⟨_, rfl, ?_, ?_, ?_⟩ <;> decide +kernel

/-- C94: with handlers that do not panic and have not panicked, nothing panics that does not panic in the model with
handlers that return. -/
theorem C94_calm (b : Build) (ω : HashOrder) (ok : Nat → Bool) (H : Handlers S) (n : PNode) (msg : Message)
    (hc : ∀ k, HandlerRef.user k ∈ n.refs → H.poisoned k = false ∧ Calm (H.code k)) :
    (n.observe b ω ok H msg).result = none ↔ (asNode H n).observe b ω ok msg = .panic := by
  constructor
  · intro h
    rcases (C94_panic b ω ok H n msg h).2.2 with ⟨h1, _⟩ | ⟨_, k, hk, _, _, h1 | ⟨s, o, p, s', _, h1, _⟩⟩
    · exact h1
    · rw [(hc k hk).1] at h1; cases h1
    · obtain ⟨a, o', s'', h2⟩ := (hc k hk).2 s o msg.esv p
      rw [h1] at h2; cases h2
  · intro h
    cases hr : (n.observe b ω ok H msg).result with
    | none => rfl
    | some outs =>
      have := (C94_returns b ω ok H n msg outs hr).1
      rw [h] at this; cases this

example : Calm placid ∧ ¬ Calm touchy := by
  refine ⟨fun s o _ _ => ⟨true, o, s + 1, rfl⟩, fun h => ?_⟩
  obtain ⟨_, _, _, h⟩ := h 0 (Object.new) .ReadRequest ⟨0xB0, []⟩
  simp [touchy] at h

/-- C94, on the network: what a panicking handler leaves behind is what the network model (`Net.Internal`, step `crash`)
says, so its theorems (C72, C73, C76, C79, C82, C83) hold for applications whose handlers panic. -/
theorem C94_network (b : Build) (ω : HashOrder) (ok : Nat → Bool) (H : Handlers S) (n : PNode) (msg : Message)
    (remotes : List RemoteNode) (seen : List (Nat × Message)) (h : (n.observe b ω ok H msg).result = none)
    (hl : (asNode H n).observe b ω ok msg ≠ .panic) :
    Host.AppPanics ⟨asNode H n, remotes, seen⟩ msg .node
      ⟨asNode (n.observe b ω ok H msg).handlers { n with node := (n.observe b ω ok H msg).node }, remotes, seen⟩ := by
  obtain ⟨h1, h2, h3 | ⟨⟨dst, d1, d2, d3⟩, _⟩⟩ := C94_panic b ω ok H n msg h
  · exact absurd h3.1 hl
  · rw [h1, asNode_code h2]
    exact .handler (h := ⟨asNode H n, remotes, seen⟩) dst _ d1 d2 d3

/-! ## Processes -/

/-- C94: a node whose mutex is poisoned is dead until the application clears the poison: whatever happens in the process,
it does not change, puts out nothing, and every call of the application on it panics. -/
theorem C94_dead (b : Build) (i : Nat) (ops : List ProcOp) : ∀ (P : Process S), P.poisoned i = true →
    (∀ op ∈ ops, ∀ j, op = .clear j → j ≠ i) →
    (P.run b ops).2.nodes i = P.nodes i ∧ (P.run b ops).2.poisoned i = true ∧
    ∀ x ∈ ops.zip (P.run b ops).1, At i x.1 → x.2 = none ∨ x.2 = some [] ∧ ∃ msg ω ok, x.1 = .receive i msg ω ok := by
  induction ops with
  | nil => intro P hp _; exact ⟨rfl, hp, by simp⟩
  | cons op ops ih =>
    intro P hp hc
    have key : (P.step b op).2.nodes i = P.nodes i ∧ (P.step b op).2.poisoned i = true ∧
        (At i op → (P.step b op).1 = none ∨ (P.step b op).1 = some [] ∧ ∃ msg ω ok, op = .receive i msg ω ok) := by
      cases op with
      | receive j msg ω ok =>
        by_cases hj : j = i
        · subst hj; simp [Process.step, hp]
        · simp only [Process.step, At, hj, false_imp_iff, and_true]
          split
          · exact ⟨rfl, hp⟩
          · split <;> simp [Process.setNode, Process.setPoison, Ne.symm hj, hp]
      | call j op left =>
        by_cases hj : j = i
        · subst hj; simp [Process.step, hp]
        · simp only [Process.step, At, hj, false_imp_iff, and_true]
          split
          · exact ⟨rfl, hp⟩
          · split <;> simp [Process.setNode, Process.setPoison, Ne.symm hj, hp]
      | register j k =>
        by_cases hj : j = i
        · subst hj; simp [Process.step, hp]
        · simp only [Process.step, At, hj, false_imp_iff, and_true]
          split
          · exact ⟨rfl, hp⟩
          · simp [Process.setNode, Ne.symm hj, hp]
      | clear j =>
        have hj := hc _ (by simp) j rfl
        simp [Process.step, Process.setPoison, At, hj, Ne.symm hj, hp]
      | clearHandler k => simp [Process.step, At, hp]
    obtain ⟨k1, k2, k3⟩ := key
    obtain ⟨i1, i2, i3⟩ := ih (P.step b op).2 k2 (fun op' h => hc op' (by simp [h]))
    refine ⟨i1.trans k1, i2, ?_⟩
    intro x hx ha
    simp only [Process.run, List.zip_cons_cons, List.mem_cons] at hx
    rcases hx with rfl | hx
    · exact k3 ha
    · exact i3 x hx ha

/-- C94: so from the moment a message makes a node panic, until the application clears the poison, the node stays as it was
before that message and puts out nothing, and every call of the application on it panics. -/
theorem C94_dead_after (b : Build) (P : Process S) (i : Nat) (msg : Message) (ω : HashOrder) (ok : Nat → Bool)
    (h : (P.step b (.receive i msg ω ok)).1 = none) (ops : List ProcOp) (hc : ∀ op ∈ ops, ∀ j, op = .clear j → j ≠ i) :
    (P.run b (.receive i msg ω ok :: ops)).2.nodes i = P.nodes i ∧
    ∀ x ∈ ops.zip ((P.step b (.receive i msg ω ok)).2.run b ops).1, At i x.1 →
      x.2 = none ∨ x.2 = some [] ∧ ∃ msg ω ok, x.1 = .receive i msg ω ok := by
  have key : (P.step b (.receive i msg ω ok)).2.poisoned i = true ∧ (P.step b (.receive i msg ω ok)).2.nodes i = P.nodes i := by
    simp only [Process.step] at h ⊢
    by_cases hp : P.poisoned i = true
    · rw [if_pos hp] at h; cases h
    · rw [if_neg hp] at h ⊢
      cases hr : ((P.nodes i).observe b ω ok P.handlers msg).result with
      | some outs => rw [hr] at h; cases h
      | none =>
        obtain ⟨h1, _⟩ := C94_panic b ω ok P.handlers (P.nodes i) msg hr
        simp [Process.setPoison, Process.setNode, h1]
  obtain ⟨d1, _, d3⟩ := C94_dead b i ops (P.step b (.receive i msg ω ok)).2 key.1 hc
  exact ⟨d1.trans key.2, d3⟩

/-- C94: what panics while it has the mutex of a node leaves it poisoned, be it the processing of a message or a call of the
application, and nothing else poisons it. -/
theorem C94_poison (b : Build) (P : Process S) (i : Nat) (op : ProcOp) :
    (At i op → (P.step b op).1 = none → (P.step b op).2.poisoned i = true) ∧
    (P.poisoned i = false → (P.step b op).2.poisoned i = true → At i op ∧ (P.step b op).1 = none) := by
  cases op with
  | receive j msg ω ok =>
    simp only [Process.step, At]
    split
    · exact ⟨fun _ h => (by cases h), fun h h' => by rw [h] at h'; cases h'⟩
    · split
      · exact ⟨fun _ h => (by cases h), fun h h' => by
          simp only [Process.setNode] at h'; rw [h] at h'; cases h'⟩
      · refine ⟨fun h _ => by simp [Process.setPoison, h], fun h h' => ?_⟩
        by_cases hj : i = j
        · exact ⟨hj.symm, rfl⟩
        · simp [Process.setPoison, Process.setNode, hj, h] at h'
  | call j op left =>
    simp only [Process.step, At]
    split
    · rename_i hp
      exact ⟨fun h _ => h ▸ hp, fun h h' => by rw [h] at h'; cases h'⟩
    · split
      · exact ⟨fun _ h => (by cases h), fun h h' => by
          simp only [Process.setNode] at h'; rw [h] at h'; cases h'⟩
      · refine ⟨fun h _ => by simp [Process.setPoison, h], fun h h' => ?_⟩
        by_cases hj : i = j
        · exact ⟨hj.symm, rfl⟩
        · simp [Process.setPoison, Process.setNode, hj, h] at h'
  | register j k =>
    simp only [Process.step, At]
    split
    · rename_i hp
      exact ⟨fun h _ => h ▸ hp, fun h h' => by rw [h] at h'; cases h'⟩
    · exact ⟨fun _ h => (by cases h), fun h h' => by
        simp only [Process.setNode] at h'; rw [h] at h'; cases h'⟩
  | clear j =>
    refine ⟨fun _ h => (by cases h), fun h h' => ?_⟩
    simp only [Process.step, Process.setPoison] at h'
    split at h'
    · cases h'
    · rw [h] at h'; cases h'
  | clearHandler k =>
    refine ⟨fun _ h => (by cases h), fun h h' => ?_⟩
    simp only [Process.step] at h'
    rw [h] at h'; cases h'

/-- C94: clearing the poison restores the node: after a message whose processing panicked and `clear_poison`, all nodes of
the process are as if the message had never come. -/
theorem C94_recover (b : Build) (P : Process S) (i : Nat) (msg : Message) (ω : HashOrder) (ok : Nat → Bool)
    (h : (P.step b (.receive i msg ω ok)).1 = none) :
    (P.run b [.receive i msg ω ok, .clear i]).2.nodes = P.nodes ∧
    (P.run b [.receive i msg ω ok, .clear i]).2.poisoned = P.poisoned ∧
    (P.run b [.receive i msg ω ok, .clear i]).2.handlers.code = P.handlers.code := by
  simp only [Process.run, Process.step] at h ⊢
  by_cases hp : P.poisoned i = true
  · rw [if_pos hp] at h; cases h
  · rw [if_neg hp] at h ⊢
    cases hr : ((P.nodes i).observe b ω ok P.handlers msg).result with
    | some outs => rw [hr] at h; cases h
    | none =>
      obtain ⟨h1, h2, _⟩ := C94_panic b ω ok P.handlers (P.nodes i) msg hr
      simp only [Process.setPoison, Process.setNode]
      refine ⟨?_, ?_, h2⟩
      · funext j
        split
        · subst_vars; rw [h1]
        · rfl
      · funext j
        split
        · subst_vars; simpa using hp
        · rfl

/-- Handler 0 of node 0 panics on a read of 0xB0; then node 0 is dead (it does not answer a read of 0x80 and a call panics)
until the poison of the mutexes of the node and of the handler is cleared; then it answers. -/
example : ∃ P, exProcess [.builtin, .user 0] [.builtin] = .ok P ∧
    let r := P.run .dev [.receive 0 ((exRequest .ReadRequest 7).addProperty ⟨0xB0, []⟩) .ascending allOk,
      .receive 0 ((exRequest .ReadRequest 8).addProperty ⟨0x80, []⟩) .ascending allOk,
      .register 0 1, .clear 0, .clearHandler 0,
      .receive 0 ((exRequest .ReadRequest 9).addProperty ⟨0x80, []⟩) .ascending allOk]
    r.1.map (Option.map (fun outs => (replies outs).map (·.esvByte))) =
      [none, some [], none, some [], some [], some [0x72]] := by
  refine ⟨_, rfl, ?_⟩; decide +kernel

/-- C94: if a node shares its handler objects with no other node, then nothing that happens to the others (requests on
which their handlers panic included) touches it: it is unchanged, its mutex is not poisoned, nor are its handlers'. -/
theorem C94_contained (b : Build) (i : Nat) (ops : List ProcOp) : ∀ (P : Process S), (∀ op ∈ ops, ¬ At i op) →
    (∀ j, j ≠ i → Separate P i j) → (∀ j k, ProcOp.register j k ∈ ops → HandlerRef.user k ∉ (P.nodes i).refs) →
    (P.run b ops).2.nodes i = P.nodes i ∧ (P.run b ops).2.poisoned i = P.poisoned i ∧
    ∀ k, HandlerRef.user k ∈ (P.nodes i).refs → P.handlers.poisoned k = false → (P.run b ops).2.handlers.poisoned k = false := by
  induction ops with
  | nil => intro P _ _ _; exact ⟨rfl, rfl, fun _ _ h => h⟩
  | cons op ops ih =>
    intro P ha hs hg
    have key : (P.step b op).2.nodes i = P.nodes i ∧ (P.step b op).2.poisoned i = P.poisoned i ∧
        (∀ j, j ≠ i → Separate (P.step b op).2 i j) ∧
        ∀ k, HandlerRef.user k ∈ (P.nodes i).refs → P.handlers.poisoned k = false →
          (P.step b op).2.handlers.poisoned k = false := by
      have hop := ha op (by simp)
      have same : ∀ P' : Process S, (∀ j, (P'.nodes j).refs = (P.nodes j).refs) → ∀ j, j ≠ i → Separate P' i j := by
        intro P' h j hj k hk
        rw [h, h] at hk
        exact hs j hj k hk
      cases op with
      | receive j msg ω ok =>
        have hj : i ≠ j := fun e => hop e.symm
        simp only [Process.step]
        split
        · exact ⟨rfl, rfl, hs, fun _ _ h => h⟩
        · have hrefs : ∀ m, ((if m = j then { P.nodes j with node := ((P.nodes j).observe b ω ok P.handlers msg).node }
              else P.nodes m : PNode)).refs = (P.nodes m).refs := by
            intro m; split
            · subst_vars; rfl
            · rfl
          have hh : ∀ k, HandlerRef.user k ∈ (P.nodes i).refs → P.handlers.poisoned k = false →
              ((P.nodes j).observe b ω ok P.handlers msg).handlers.poisoned k = false := by
            intro k hk hz
            cases hr : ((P.nodes j).observe b ω ok P.handlers msg).result with
            | some outs => rw [(C94_returns b ω ok P.handlers (P.nodes j) msg outs hr).2.2]; exact hz
            | none =>
              rcases (C94_panic b ω ok P.handlers (P.nodes j) msg hr).2.2 with ⟨_, h1⟩ | ⟨_, k', hk', _, h1, _⟩
              · rw [h1]; exact hz
              · by_cases hkk : k = k'
                · subst hkk; exact absurd ⟨hk, hk'⟩ (hs j (fun e => hj e.symm) k)
                · rw [h1 k hkk]; exact hz
          split
          · refine ⟨by simp [Process.setNode, hj], rfl, same _ ?_, hh⟩
            intro m; exact hrefs m
          · refine ⟨by simp [Process.setNode, Process.setPoison, hj], by simp [Process.setNode, Process.setPoison, hj], same _ ?_, hh⟩
            intro m; exact hrefs m
      | call j op left =>
        have hj : i ≠ j := fun e => hop e.symm
        simp only [Process.step]
        split
        · exact ⟨rfl, rfl, hs, fun _ _ h => h⟩
        · split
          · refine ⟨by simp [Process.setNode, hj], rfl, same _ ?_, fun _ _ h => h⟩
            intro m; simp only [Process.setNode]; split
            · subst_vars; rfl
            · rfl
          · refine ⟨by simp [Process.setNode, Process.setPoison, hj], by simp [Process.setNode, Process.setPoison, hj],
              same _ ?_, fun _ _ h => h⟩
            intro m; simp only [Process.setNode, Process.setPoison]; split
            · subst_vars; rfl
            · rfl
      | register j k =>
        have hj : i ≠ j := fun e => hop e.symm
        have hk := hg j k (by simp)
        simp only [Process.step]
        split
        · exact ⟨rfl, rfl, hs, fun _ _ h => h⟩
        · refine ⟨by simp [Process.setNode, hj], rfl, ?_, fun _ _ h => h⟩
          intro m hm k' hk'
          simp only [Process.setNode, if_neg hj] at hk'
          by_cases hmj : m = j
          · subst hmj
            simp only [if_true, List.mem_append, List.mem_singleton, HandlerRef.user.injEq] at hk'
            rcases hk'.2 with h | h
            · exact hs m hm k' ⟨hk'.1, h⟩
            · subst h; exact hk hk'.1
          · rw [if_neg hmj] at hk'; exact hs m hm k' hk'
      | clear j =>
        have hj : i ≠ j := fun e => hop e.symm
        exact ⟨rfl, by simp [Process.step, Process.setPoison, hj], same _ (fun _ => rfl), fun _ _ h => h⟩
      | clearHandler k =>
        refine ⟨rfl, rfl, same _ (fun _ => rfl), ?_⟩
        intro k' _ h
        simp only [Process.step]
        split
        · rfl
        · exact h
    obtain ⟨k1, k2, k3, k4⟩ := key
    obtain ⟨i1, i2, i3⟩ := ih (P.step b op).2 (fun op' h => ha op' (by simp [h])) k3
      (fun j k h => by rw [k1]; exact hg j k (by simp [h]))
    refine ⟨i1.trans k1, i2.trans k2, ?_⟩
    intro k hk hz
    exact i3 k (by rw [k1]; exact hk) (k4 k hk hz)

/-- Node 0 dies, node 1, which has another handler object, answers. -/
example : ∃ P, exProcess [.builtin, .user 0] [.builtin, .user 1] = .ok P ∧ (∀ j, j ≠ 1 → Separate P 1 j) ∧
    let r := P.run .dev [.receive 0 ((exRequest .ReadRequest 7).addProperty ⟨0xB0, []⟩) .ascending allOk,
      .receive 1 ((exRequest .ReadRequest 8).addProperty ⟨0x80, []⟩) .ascending allOk]
    r.1.map (Option.map (fun outs => (replies outs).map (·.esvByte))) = [none, some [0x72]] := by
  refine ⟨_, rfl, ?_, ?_⟩
  · intro j hj k hk
    by_cases h0 : j = 0
    · subst h0; revert hk; simp; omega
    · revert hk; simp [h0, hj]
  · decide +kernel

/-- C94: without that restriction containment fails: if two nodes share a handler object, a request to one of them on
which it panics makes the other one die from the next request it has to ask the handler about, although the handler accepts
that request (a read of 0x80). -/
theorem C94_shared_fails : ∃ (P : Process Nat) (m₀ m₁ : Message),
    P.nodes 0 = P.nodes 1 ∧
    (∃ outs, (P.run .dev [.receive 1 m₁ .ascending allOk]).1 = [some outs] ∧ (replies outs).map (·.esvByte) = [0x72]) ∧
    (P.run .dev [.receive 0 m₀ .ascending allOk, .receive 1 m₁ .ascending allOk]).1 = [none, none] ∧
    (P.run .dev [.receive 0 m₀ .ascending allOk, .receive 1 m₁ .ascending allOk]).2.poisoned 1 = true := by
  obtain ⟨P, h, h1, h2, h3, h4⟩ : ∃ P, exProcess [.builtin, .user 0] [.builtin, .user 0] = .ok P ∧
      P.nodes 0 = P.nodes 1 ∧
      (∃ outs, (P.run .dev [.receive 1 ((exRequest .ReadRequest 8).addProperty ⟨0x80, []⟩) .ascending allOk]).1 = [some outs] ∧
        (replies outs).map (·.esvByte) = [0x72]) ∧
      (P.run .dev [.receive 0 ((exRequest .ReadRequest 7).addProperty ⟨0xB0, []⟩) .ascending allOk,
        .receive 1 ((exRequest .ReadRequest 8).addProperty ⟨0x80, []⟩) .ascending allOk]).1 = [none, none] ∧
      (P.run .dev [.receive 0 ((exRequest .ReadRequest 7).addProperty ⟨0xB0, []⟩) .ascending allOk,
        .receive 1 ((exRequest .ReadRequest 8).addProperty ⟨0x80, []⟩) .ascending allOk]).2.poisoned 1 = true := by
    refine ⟨_, rfl, rfl, ⟨_, rfl, ?_⟩, ?_, ?_⟩ <;> decide +kernel
  exact ⟨P, _, _, h1, h2, h3, h4⟩
