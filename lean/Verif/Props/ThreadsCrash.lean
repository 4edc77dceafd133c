import Verif.Spec.ThreadsCrash
import Verif.Props.Threads
import Verif.Props.Crash
import Verif.Lemmas.Controller
/-!
# C57 and C89: when threads crash, and what becomes of the others
-/
namespace Uecho
open Spec
set_option linter.unusedSectionVars false
variable {S : Type}

/-- The remote nodes of a controller stay such that they can be cloned. -/
theorem step_std {b : Build} {ω₀ : HashOrder} {db : Database} (hdb : standardDb b ω₀ = .ok db) {h h' : Host S}
    {op : HostOp S} {outs : List Out} (hop : SafeHostOp b op) (hs : ∀ r ∈ h.remotes, ∀ o ∈ r.objects, StdObject o)
    (he : h.step b db op = .ok (h', outs)) : ∀ r ∈ h'.remotes, ∀ o ∈ r.objects, StdObject o := by
  cases op with
  | call o e msg =>
    cases o with
    | node =>
      obtain ⟨r, _, h2⟩ := Res.bind_eq_ok.mp he
      cases h2
      exact hs
    | controller =>
      obtain ⟨r, h1, h2⟩ := Res.bind_eq_ok.mp he
      cases h2
      by_cases hf : e.ctrlFree = true ∧ IsProfileMessage msg
      · obtain ⟨h3, h4⟩ := hf
        obtain ⟨r', h5, _, h6⟩ := observeController_profile hdb e.ω e.uuid hop.2 h.remotes h4
        rw [h3, h5] at h1
        cases h1
        intro x hx
        rcases replace_mem hx with hx | rfl
        · exact hs x hx
        · exact h6
      · rw [observeController_other b db e.ω e.uuid e.ctrlFree h.remotes
          (by cases hc : e.ctrlFree with
            | false => exact Or.inl rfl
            | true => exact Or.inr (fun hm => hf ⟨hc, hm⟩))] at h1
        cases h1
        exact hs
    | device => cases he; exact hs
    | user k => cases he; exact hs
  | node op =>
    obtain ⟨r, _, h2⟩ := Res.bind_eq_ok.mp he
    cases h2
    exact hs
  | search code ok => cases he; exact hs
  | send r msg free ok =>
    have : h'.remotes = h.remotes := by
      simp only [Host.step, Host.sendMessage] at he
      split at he <;> cases he <;> rfl
    rw [this]
    exact hs
  | post r msg ok => cases he; exact hs
  | start menv uenv ok =>
    obtain ⟨r, h1, h2⟩ := Res.bind_eq_ok.mp he
    have h2 : r.2 = (h', outs) := Res.ok.inj h2
    unfold Host.start at h1
    obtain ⟨z, _, h1⟩ := Res.bind_eq_ok.mp h1
    split at h1 <;> cases h1 <;> cases h2 <;> exact hs
  | stop =>
    obtain ⟨r, h1, h2⟩ := Res.bind_eq_ok.mp he
    cases h2
    unfold Host.stop at h1
    obtain ⟨z, _, h1⟩ := Res.bind_eq_ok.mp h1
    split at h1 <;> cases h1 <;> exact hs

theorem run_std {b : Build} {ω₀ : HashOrder} {db : Database} (hdb : standardDb b ω₀ = .ok db) {ops : List (HostOp S)}
    {h h' : Host S} {outs : List Out} (hops : ∀ op ∈ ops, SafeHostOp b op)
    (hs : ∀ r ∈ h.remotes, ∀ o ∈ r.objects, StdObject o) (he : h.run b db ops = .ok (h', outs)) :
    ∀ r ∈ h'.remotes, ∀ o ∈ r.objects, StdObject o := by
  induction ops generalizing h outs with
  | nil => cases he; exact hs
  | cons op ops ih =>
    simp only [Host.run] at he
    obtain ⟨x, h1, h2⟩ := Res.bind_eq_ok.mp he
    obtain ⟨z, h3, h4⟩ := Res.bind_eq_ok.mp h2
    cases h4
    exact ih (fun op h => hops op (by simp [h])) (step_std hdb (hops op (by simp)) hs h1) h3

/-- A call that panics is one whose operations on the host do, or `Controller::nodes`. -/
theorem effect_panic (b : Build) (db : Database) (h : Host S) (a : ApiCall S)
    (he : a.effect b db (guarded h a.guard) = .panic) :
    (∃ ω, a = .nodes ω ∧ h.nodes b ω = .panic) ∨ h.run b db (hostOps a false) = .panic := by
  have bp : ∀ {α β : Type} {x : Res α} {f : α → Res β}, (∀ r, x = .ok r → f r ≠ .panic) → (x >>= f) = .panic →
      x = .panic := by
    intro α β x f hf hx
    cases x with
    | panic => rfl
    | ok r => exact absurd hx (hf r rfl)
  cases a with
  | setProperty d c data => cases he
  | property d c => cases he
  | setRequestHandler d hd => cases he
  | startDevice d menv uenv ok =>
    right
    have h1 : d.start menv uenv ok h.node = .panic := bp (by nofun) he
    have h2 : h.node.start menv uenv ok = .panic := by
      refine bp ?_ h1
      intro r _
      split <;> nofun
    rw [hostOps, Host.run_one]
    simp only [Host.step, Node.step, h2]
    rfl
  | stopDevice d =>
    right
    have h1 : d.stop h.node = .panic := bp (by nofun) he
    have h2 : h.node.stop = .panic := by
      refine bp ?_ h1
      intro r _
      split <;> nofun
    rw [hostOps, Host.run_one]
    simp only [Host.step, Node.step, h2]
    rfl
  | search code ok => cases he
  | send rn msg ok => cases he
  | post rn msg ok => cases he
  | startController menv uenv ok =>
    right
    have h1 : (Host.ofNode h.node).start menv uenv ok = .panic := bp (by nofun) he
    have h2 : h.node.start menv uenv ok = .panic := by
      refine bp ?_ h1
      intro r _
      split <;> nofun
    rw [hostOps, Host.run_one]
    simp only [Host.step, Host.start, h2]
    rfl
  | stopController =>
    right
    have h1 : (Host.ofNode h.node).stop = .panic := bp (by nofun) he
    have h2 : h.node.stop = .panic := by
      refine bp ?_ h1
      intro r _
      split <;> nofun
    rw [hostOps, Host.run_one]
    simp only [Host.step, Host.stop, h2]
    rfl
  | addObserver ob => cases he
  | nodes ω =>
    left
    exact ⟨ω, rfl, bp (x := Host.nodesLoop b ω h.remotes) (by nofun) he⟩
  | locked ops =>
    right
    have h1 : h.node.run b ops = .panic := bp (by nofun) he
    rw [hostOps, Host.run_node, h1]
    rfl
  | received ω ok msg =>
    right
    have h1 : h.node.observeTry b ω ok true msg = .panic := bp (by nofun) he
    rw [hostOps, Host.run_one]
    simp only [Host.step, Host.invoke, Bool.not_false, h1]
    rfl
  | discovered ω uuid msg =>
    right
    have h1 : observeController b db ω uuid true h.remotes msg = .panic := bp (by nofun) he
    rw [hostOps, Host.run_one]
    simp only [Host.step, Host.invoke, Bool.not_false, h1]
    rfl

/-- C57 (partial), threads: however many threads call the methods of a host's devices and controller and deliver
messages to it, and however their accesses are interleaved, no thread crashes and no mutex is poisoned, as long as the
calls respect the preconditions of the library and no delivered message has service 0x5E. -/
theorem C57_threads_partial (b : Build) (ω₀ : HashOrder) (db : Database) (hdb : standardDb b ω₀ = .ok db)
    (code : (a : ApiCall S) → Body (Guarded S a.guard) Out Result) (hcode : ∀ a x, (code a).run x = a.effect b db x)
    (h₀ : Host S) (hh : Sound b h₀.node) (hr : h₀.remotes = []) (σ : Shared (hostProgram code))
    (hσ : TReaches (Shared.init (hostProgram code) (guarded h₀)) σ)
    (hsafe : ∀ i a, Event.invoke i a ∈ σ.trace → SafeCall b a) :
    (∀ t i a, σ.doing t ≠ .crashed i a) ∧ ∀ g, σ.poisoned g = false := by
  obtain ⟨l, h, outs, hex, _, _, hrun, _, _, hpois, hcrash⟩ := C89_linearizable b db code hcode h₀ σ hσ
  have hops : ∀ op ∈ l.flatMap (fun d => hostOps d.call d.refused), SafeHostOp b op := by
    intro op hop
    obtain ⟨d, hd, hop⟩ := List.mem_flatMap.mp hop
    exact hsafe _ _ (hex.made d hd) d.refused op hop
  obtain ⟨h', outs', hrun', hs'⟩ := C57_no_panic_partial b ω₀ db hdb h₀ hh _ hops
  rw [hrun] at hrun'
  cases hrun'
  have hstd := run_std hdb hops (by rw [hr]; simp) hrun
  have hp : ∀ g, σ.poisoned g = false := by
    intro g
    cases hg : σ.poisoned g with
    | false => rfl
    | true =>
      obtain ⟨_, i, a, h1, _, h3⟩ := hpois g hg
      rcases effect_panic b db h a h3 with ⟨ω, _, h4⟩ | h4
      · obtain ⟨_, h5, _⟩ := nodes_eq b ω hstd
        rw [h4] at h5
        cases h5
      · obtain ⟨_, _, h5, _⟩ := C57_no_panic_partial b ω₀ db hdb h hs' _ (hsafe i a h1 false)
        rw [h4] at h5
        cases h5
  refine ⟨fun t i a hd => ?_, hp⟩
  obtain ⟨⟨g, hg⟩, _⟩ := hcrash t i a hd
  rw [hp] at hg
  cases hg

/-- The hypotheses of `C57_threads_partial` hold in the example of Props/Threads, on every sound host, if the message is
safe: a thread sets a property while a message is delivered and a third thread reads the property. -/
example (b : Build) (d : Device) (data : List UInt8) (ω : HashOrder) (ok : Nat → Bool) (msg : Message)
    (hm : SafeMessage msg) (a : ApiCall S)
    (ha : a = .setProperty d 0x80 data ∨ a = .received ω ok msg ∨ a = .property d 0x80) : SafeCall b a := by
  intro r op hop
  rcases ha with rfl | rfl | rfl <;> simp only [hostOps, List.mem_singleton, List.not_mem_nil] at hop
  · subst hop; trivial
  · subst hop; exact ⟨hm, fun i => by simp⟩

/-! ## After a crash -/
section
variable {A G O R : Type} {X : G → Type} [DecidableEq G] {P : Program A G O R X}

/-- What holds once mutex `g` is poisoned, for calls made from then on (with numbers from `N`). -/
structure DeadInv (g : G) (N : Nat) (σ : Shared P) : Prop where
  pois : σ.poisoned g = true
  calls : N ≤ σ.calls
  inside : ∀ t i a rest, σ.doing t = .inside i a rest → N ≤ i → g ∉ P.holds a
  leave : ∀ t i a r, σ.doing t = .leaving i a r → N ≤ i → g ∈ P.holds a → P.tries a ≠ none ∧ r = P.busy a
  ret : ∀ i a r, Event.invoke i a ∈ σ.trace → Event.returns i r ∈ σ.trace → N ≤ i → g ∈ P.holds a →
    P.tries a ≠ none ∧ r = P.busy a

theorem dead_calls (x : (g : G) → X g) (g : G) (σ : Shared P) (hσ : TReaches (Shared.init P x) σ)
    (hp : σ.poisoned g = true) (τ : Shared P) (hτ : TReaches σ τ) :
    TReaches (Shared.init P x) τ ∧ DeadInv g σ.calls τ := by
  induction hτ with
  | refl =>
    obtain ⟨l, y, o, inv⟩ := threads_inv x σ hσ
    refine ⟨hσ, hp, Nat.le_refl _, ?_, ?_, ?_⟩
    · intro t i a rest hd hi
      have := inv.ids i a (inv.call t i a (by rw [hd]; rfl)).1
      omega
    · intro t i a r hd hi
      have := inv.ids i a (inv.call t i a (by rw [hd]; rfl)).1
      omega
    · intro i a r hi _ hn
      have := inv.ids i a hi
      omega
  | @step τ υ _ hs ih =>
    obtain ⟨hr, ih⟩ := ih
    obtain ⟨l, y, o, inv⟩ := threads_inv x τ hr
    refine ⟨hr.step hs, ?_⟩
    cases hs with
    | @invoke t a ht =>
      refine ⟨ih.pois, Nat.le_succ_of_le ih.calls, ?_, ?_, ?_⟩
      · intro t' i c rest hd
        rcases now_cases hd with ⟨_, hd⟩ | ⟨_, hd⟩
        · cases hd
        · exact ih.inside t' i c rest hd
      · intro t' i c r hd
        rcases now_cases hd with ⟨_, hd⟩ | ⟨_, hd⟩
        · cases hd
        · exact ih.leave t' i c r hd
      · intro i c r h1 h2
        simp only [now_trace, List.mem_append, List.mem_singleton, reduceCtorEq, or_false, Event.invoke.injEq] at h1 h2
        rcases h1 with h1 | ⟨rfl, rfl⟩
        · exact ih.ret i c r h1 h2
        · obtain ⟨d, hd, he, _⟩ := inv.ex.returned _ _ h2
          have := inv.ids _ _ (inv.ex.made d hd)
          omega
    | @acquire t i a ht ho hq =>
      refine ⟨ih.pois, ih.calls, ?_, ?_, ih.ret⟩
      · intro t' j c rest hd
        rcases now_cases hd with ⟨_, hd⟩ | ⟨_, hd⟩
        · cases hd
          intro _ hg
          have := hq g hg
          rw [ih.pois] at this
          cases this
        · exact ih.inside t' j c rest hd
      · intro t' j c r hd
        rcases now_cases hd with ⟨_, hd⟩ | ⟨_, hd⟩
        · cases hd
        · exact ih.leave t' j c r hd
    | @refuse t i a g₀ ht htr hw =>
      refine ⟨ih.pois, ih.calls, ?_, ?_, ih.ret⟩
      · intro t' j c rest hd
        rcases now_cases hd with ⟨_, hd⟩ | ⟨_, hd⟩
        · cases hd
        · exact ih.inside t' j c rest hd
      · intro t' j c r hd
        rcases now_cases hd with ⟨_, hd⟩ | ⟨_, hd⟩
        · cases hd
          exact fun _ _ => ⟨by rw [htr]; nofun, rfl⟩
        · exact ih.leave t' j c r hd
    | @poisoned t i a g₀ l₁ l₂ ht hl hf hq =>
      refine ⟨by simp only [now_poisoned]; split <;> first | rfl | exact ih.pois, ih.calls, ?_, ?_, ih.ret⟩
      · intro t' j c rest hd
        rcases now_cases hd with ⟨_, hd⟩ | ⟨_, hd⟩
        · cases hd
        · exact ih.inside t' j c rest hd
      · intro t' j c r hd
        rcases now_cases hd with ⟨_, hd⟩ | ⟨_, hd⟩
        · cases hd
        · exact ih.leave t' j c r hd
    | @access t i a f k ht =>
      refine ⟨ih.pois, ih.calls, ?_, ?_, ih.ret⟩
      · intro t' j c rest hd
        rcases now_cases hd with ⟨_, hd⟩ | ⟨_, hd⟩
        · cases hd
          exact ih.inside t i a _ ht
        · exact ih.inside t' j c rest hd
      · intro t' j c r hd
        rcases now_cases hd with ⟨_, hd⟩ | ⟨_, hd⟩
        · cases hd
        · exact ih.leave t' j c r hd
    | @release t i a r ht =>
      refine ⟨ih.pois, ih.calls, ?_, ?_, ih.ret⟩
      · intro t' j c rest hd
        rcases now_cases hd with ⟨_, hd⟩ | ⟨_, hd⟩
        · cases hd
        · exact ih.inside t' j c rest hd
      · intro t' j c r hd
        rcases now_cases hd with ⟨_, hd⟩ | ⟨_, hd⟩
        · cases hd
          exact fun hn hg => absurd hg (ih.inside t i a _ ht hn)
        · exact ih.leave t' j c r hd
    | @panic t i a ht =>
      refine ⟨?_, ih.calls, ?_, ?_, ih.ret⟩
      · simp only [now_poisoned]
        split
        · rfl
        · exact ih.pois
      · intro t' j c rest hd
        rcases now_cases hd with ⟨_, hd⟩ | ⟨_, hd⟩
        · cases hd
        · exact ih.inside t' j c rest hd
      · intro t' j c r hd
        rcases now_cases hd with ⟨_, hd⟩ | ⟨_, hd⟩
        · cases hd
        · exact ih.leave t' j c r hd
    | @«return» t i a r ht =>
      refine ⟨ih.pois, ih.calls, ?_, ?_, ?_⟩
      · intro t' j c rest hd
        rcases now_cases hd with ⟨_, hd⟩ | ⟨_, hd⟩
        · cases hd
        · exact ih.inside t' j c rest hd
      · intro t' j c r hd
        rcases now_cases hd with ⟨_, hd⟩ | ⟨_, hd⟩
        · cases hd
        · exact ih.leave t' j c r hd
      · intro j c r' h1 h2
        simp only [now_trace, List.mem_append, List.mem_singleton, reduceCtorEq, or_false, Event.returns.injEq] at h1 h2
        rcases h2 with h2 | ⟨rfl, rfl⟩
        · exact ih.ret j c r' h1 h2
        · have := inv.named _ _ _ h1 (inv.call t j a (by rw [ht]; rfl)).1
          subst this
          exact ih.leave t j c r' ht

/-- Calls are numbered in the order in which they are made. -/
theorem new_calls (σ τ : Shared P) (hτ : TReaches σ τ) :
    σ.calls ≤ τ.calls ∧ ∀ i a, Event.invoke i a ∈ τ.trace → i < σ.calls → Event.invoke i a ∈ σ.trace := by
  induction hτ with
  | refl => exact ⟨Nat.le_refl _, fun _ _ h _ => h⟩
  | @step τ υ _ hs ih =>
    cases hs with
    | @invoke t a ht =>
      refine ⟨Nat.le_succ_of_le ih.1, fun i c hi hn => ?_⟩
      simp only [now_trace, List.mem_append, List.mem_singleton, Event.invoke.injEq] at hi
      rcases hi with hi | ⟨rfl, rfl⟩
      · exact ih.2 i c hi hn
      · have := ih.1; omega
    | @«return» t i a r ht =>
      refine ⟨ih.1, fun i c hi hn => ?_⟩
      simp only [now_trace, List.mem_append, List.mem_singleton, reduceCtorEq, or_false] at hi
      exact ih.2 i c hi hn
    | _ => exact ih

end

/-- C57, afterwards: once the mutex of the node is poisoned, no call that uses the node and is made from then on ever
takes effect: those of `Device` and `Controller` do not return at all (except that `send_message` may return false),
and messages are ignored. -/
theorem C57_disabled (code : (a : ApiCall S) → Body (Guarded S a.guard) Out Result)
    (h₀ : Host S) (σ τ : Shared (hostProgram code))
    (hσ : TReaches (Shared.init (hostProgram code) (guarded h₀)) σ) (hp : σ.poisoned .node = true)
    (hτ : TReaches σ τ) (i : Nat) (a : ApiCall S) (r : Result) (hi : ∀ c, Event.invoke i c ∉ σ.trace)
    (ha : Event.invoke i a ∈ τ.trace) (hu : usesNode a = true) (hr : Event.returns i r ∈ τ.trace) :
    refusable a = true ∧ r = refusal a := by
  obtain ⟨_, inv⟩ := dead_calls (guarded h₀) .node σ hσ hp τ hτ
  have hn : σ.calls ≤ i := by
    rcases Nat.lt_or_ge i σ.calls with h | h
    · exact absurd ((new_calls σ τ hτ).2 i a ha h) (hi a)
    · exact h
  have hg : Guard.node ∈ (hostProgram code).holds a := by
    cases a <;> first | (simp [hostProgram, ApiCall.holds]; done) | cases hu
  obtain ⟨h1, rfl⟩ := inv.ret i a r ha hr hn hg
  cases a <;> first | exact ⟨rfl, rfl⟩ | exact absurd rfl h1

/-- C57 is false also for the application: on every host, in whatever state, the delivery of a message of service 0x5E
with the last TID (`C57_fails_response` gives the datagram) poisons the mutex of the node, whereupon (`C57_disabled`) the
methods of its devices and of its controller no longer work; a thread that calls one crashes, and if it is one of the
controller's it disables the controller too, including `nodes`, which does not use the node. -/
theorem C57_fails_threads (b : Build) (db : Database) (code : (a : ApiCall S) → Body (Guarded S a.guard) Out Result)
    (hcode : ∀ a x, (code a).run x = a.effect b db x) (h₀ : Host S) (ω : HashOrder) (ok : Nat → Bool) (msg : Message)
    (hm : Received msg) (h5 : msg.esvByte = 0x5E) (ht : msg.tid = h₀.node.lastTid) :
    ∃ σ, TReaches (Shared.init (hostProgram code) (guarded h₀)) σ ∧ σ.poisoned .node = true ∧
      σ.trace = [.invoke 0 (.received ω ok msg)] ∧
      ∀ a, usesNode a = true → delivery a = false → ∃ τ, TReaches σ τ ∧ τ.doing 1 = .crashed 1 a ∧
        (usesController a = true → τ.poisoned .ctrl = true) := by
  have hpan : (code (.received ω ok msg)).run h₀.node = .panic := by
    refine (hcode (.received ω ok msg) h₀.node).trans ?_
    obtain ⟨hf, hs⟩ := received_fields hm
    have := C40_write_read_error_panics b ω ok h₀.node msg h5 ht hf hs
    simp only [ApiCall.effect, Node.observeTry]
    rw [this]
    rfl
  have key : ∀ (rest : Body (Node S) Out Result) (σ : Shared (hostProgram code)),
      TReaches (Shared.init (hostProgram code) (guarded h₀)) σ → σ.doing 0 = .inside 0 (.received ω ok msg) rest →
      σ.trace = [.invoke 0 (.received ω ok msg)] → σ.calls = 1 → σ.doing 1 = .idle →
      (σ.owner .ctrl = none ∧ σ.poisoned .ctrl = false) → rest.run (σ.data .node) = .panic →
      ∃ σ, TReaches (Shared.init (hostProgram code) (guarded h₀)) σ ∧ σ.poisoned .node = true ∧
        σ.trace = [.invoke 0 (.received ω ok msg)] ∧ σ.calls = 1 ∧ σ.doing 1 = .idle ∧
        σ.owner .ctrl = none ∧ σ.poisoned .ctrl = false := by
    intro rest
    induction rest with
    | ret r => intro σ _ _ _ _ _ _ hr; cases hr
    | panic =>
      intro σ h1 h2 h3 h4 h5 hc _
      refine ⟨_, h1.step (.panic h2), ?_, h3, h4, h5, ?_, ?_⟩ <;> simp [hostProgram, ApiCall.holds, hc]
    | access f k ih =>
      intro σ h1 h2 h3 h4 h5 hc hr
      refine ih (σ.data .node) _ (h1.step (.access h2)) ?_ h3 h4 h5 hc ?_
      · simp; rfl
      · simp only [Body.run] at hr
        cases hk : (k (σ.data .node)).run (f (σ.data .node)).1 with
        | panic => exact hk
        | ok z => rw [hk] at hr; cases hr
  obtain ⟨σ, h1, h2, h3, h4, h6, ho, hf⟩ := key (code (.received ω ok msg)) _
    ((TReaches.refl.step (.invoke (t := 0) (.received ω ok msg) rfl)).step
      (.acquire (t := 0) rfl (fun _ _ => rfl) (fun _ _ => rfl))) rfl rfl rfl rfl ⟨rfl, rfl⟩ hpan
  refine ⟨σ, h1, h2, h3, fun a hu hd => ?_⟩
  obtain ⟨l₁, hl, hfree, hctrl⟩ : ∃ l₁, (hostProgram code).locks a = l₁ ++ .node :: [] ∧
      (∀ g ∈ l₁, σ.owner g = none ∧ σ.poisoned g = false) ∧ (usesController a = true → Guard.ctrl ∈ l₁) := by
    cases a <;> first
      | (cases hd; done)
      | (cases hu; done)
      | exact ⟨[], rfl, by simp, by simp [usesController]⟩
      | exact ⟨[.ctrl], rfl, by simp [ho, hf], by simp⟩
  refine ⟨_, (TReaches.refl.step (.invoke (t := 1) a h6)).step
    (.poisoned (t := 1) (i := σ.calls) (a := a) l₁ [] ?_ hl hfree h2), ?_, ?_⟩
  · simp
  · simp [h4]
  · intro hc
    simp [hctrl hc]

end Uecho
