import Verif.Props.Post
import Verif.Props.Observers
import Verif.Props.Controller
import Verif.Props.Discovery
import Verif.Props.Crash
import Verif.Spec.Shared
/-!
# Several controllers and devices on one node: C91
-/
namespace Uecho
open Spec
variable {S : Type}

/-! ## The node -/

theorem nodeRun_append {b : Build} {n : Node S} {l₁ l₂ : List (Op S)} :
    n.run b (l₁ ++ l₂) = (do
      let r ← n.run b l₁
      let r' ← r.1.run b l₂
      pure (r'.1, r.2 ++ r'.2)) := by
  induction l₁ generalizing n with
  | nil =>
    simp only [List.nil_append, Node.run, Res.bind_ok]
    cases n.run b l₂ with
    | panic => rfl
    | ok r => simp
  | cons op l ih =>
    simp only [List.cons_append, Node.run]
    cases n.step b op with
    | panic => rfl
    | ok r =>
      simp only [Res.bind_ok, ih]
      cases r.1.run b l with
      | panic => rfl
      | ok r' =>
        simp only [Res.bind_ok, Res.pure_eq]
        cases r'.1.run b l₂ with
        | panic => rfl
        | ok r'' => simp

theorem nodeRun_one {b : Build} {n : Node S} {op : Op S} : n.run b [op] = n.step b op := by
  simp only [Node.run]
  cases n.step b op with
  | panic => rfl
  | ok r => simp

theorem invoke_user {b : Build} {db : Database} {e : CallEnv} {m : Message} {s s' : MultiHost S} {k : Nat} {outs : List Out}
    (h : s.invoke b db e m (.user k) = .ok (s', outs)) :
    s'.node = s.node ∧ outs = [] ∧ s'.watchers.length = s.watchers.length ∧
      (∀ j, j ≠ k → s'.watchers[j]? = s.watchers[j]?) ∧
      (∀ l, s.watchers[k]? = some (.controller l) →
        ∃ l', observeController b db e.ω e.uuid e.ctrlFree l m = .ok l' ∧ s'.watchers[k]? = some (.controller l')) ∧
      (∀ ms, s.watchers[k]? = some (.app ms) → s'.watchers[k]? = some (.app (ms ++ [m]))) ∧
      (s.watchers[k]? = some .device → s'.watchers[k]? = some .device) := by
  simp only [MultiHost.invoke] at h
  split at h
  · rename_i l hw
    obtain ⟨r, hr, h⟩ := Res.bind_eq_ok.mp h
    simp only [Res.pure_eq, Res.ok.injEq, Prod.mk.injEq] at h
    obtain ⟨rfl, rfl⟩ := h
    have hlt : k < s.watchers.length := (List.getElem?_eq_some_iff.mp hw).1
    refine ⟨rfl, rfl, by simp, ?_, ?_, ?_, ?_⟩
    · intro j hj; simp [List.getElem?_set_ne (Ne.symm hj)]
    · intro l' hl'
      rw [hw] at hl'; cases hl'
      exact ⟨r, hr, by simp [hlt]⟩
    · intro ms hms; rw [hw] at hms; cases hms
    · intro hd; rw [hw] at hd; cases hd
  · rename_i ms hw
    simp only [Res.ok.injEq, Prod.mk.injEq] at h
    obtain ⟨rfl, rfl⟩ := h
    have hlt : k < s.watchers.length := (List.getElem?_eq_some_iff.mp hw).1
    refine ⟨rfl, rfl, by simp, ?_, ?_, ?_, ?_⟩
    · intro j hj; simp [List.getElem?_set_ne (Ne.symm hj)]
    · intro l hl; rw [hw] at hl; cases hl
    · intro ms' hms'
      rw [hw] at hms'; cases hms'
      simp [hlt]
    · intro hd; rw [hw] at hd; cases hd
  · rename_i hc ha
    simp only [Res.ok.injEq, Prod.mk.injEq] at h
    obtain ⟨rfl, rfl⟩ := h
    exact ⟨rfl, rfl, rfl, fun _ _ => rfl, fun l hl => absurd hl (hc l), fun ms hms => absurd hms (ha ms), id⟩

/-- What one step does to the node and to the list of observer objects. -/
theorem shared_step {b : Build} {db : Database} {s s' : MultiHost S} {op : SharedOp S} {outs : List Out}
    (h : s.step b db op = .ok (s', outs)) :
    s.node.run b (nodeOp b db s.watchers.length op) = .ok (s'.node, outs) ∧
      s'.watchers.length = (if isMaking op then s.watchers.length + 1 else s.watchers.length) ∧
      ((∀ k e m, op ≠ .call (.user k) e m) → ∀ j, j < s.watchers.length → s'.watchers[j]? = s.watchers[j]?) := by
  have nostart : ∀ {n : Node S} {menv uenv ok r}, n.start menv uenv ok = .ok r →
      n.step b (.start menv uenv ok) = .ok (r.2.1, r.2.2) := by
    intro n menv uenv ok r hr
    simp only [Node.step, hr, Res.bind_ok, Res.pure_eq]
  have stops : ∀ {k : Nat} {r}, (s.host k).stop = .ok r → s.node.run b [.stop] = .ok (r.2.node, []) := by
    intro k r hr
    unfold Host.stop at hr
    obtain ⟨x, hx, hr⟩ := Res.bind_eq_ok.mp hr
    have hx' : s.node.stop = .ok x := hx
    have : r.2.node = x.2 := by
      split at hr <;> (simp only [Res.pure_eq, Res.ok.injEq] at hr; rw [← hr])
    rw [nodeRun_one, this]
    simp only [Node.step, hx', Res.bind_ok, Res.pure_eq]
  cases op with
  | newController =>
    simp only [MultiHost.step, Res.ok.injEq, Prod.mk.injEq] at h
    obtain ⟨rfl, rfl⟩ := h
    refine ⟨rfl, by simp [MultiHost.newController, isMaking], ?_⟩
    intro _ j hj
    simp [MultiHost.newController, List.getElem?_append_left hj]
  | newDevice uuid₁ uuid₂ ω code =>
    obtain ⟨r, hr, h⟩ := Res.bind_eq_ok.mp h
    simp only [Res.pure_eq, Res.ok.injEq, Prod.mk.injEq] at h
    obtain ⟨rfl, rfl⟩ := h
    unfold MultiHost.newDevice at hr
    obtain ⟨o, ho, hr⟩ := Res.bind_eq_ok.mp hr
    obtain ⟨n, hn, hr⟩ := Res.bind_eq_ok.mp hr
    simp only [Res.pure_eq, Res.ok.injEq] at hr
    subst hr
    refine ⟨?_, by simp [isMaking], ?_⟩
    · simp only [nodeOp, ho, Node.run, Node.step, Res.bind_ok, hn, Res.pure_eq]
      rfl
    · intro _ j hj
      simp [List.getElem?_append_left hj]
  | newObserver =>
    simp only [MultiHost.step, Res.ok.injEq, Prod.mk.injEq] at h
    obtain ⟨rfl, rfl⟩ := h
    refine ⟨rfl, by simp [MultiHost.newObserver, isMaking], ?_⟩
    intro _ j hj
    simp [MultiHost.newObserver, List.getElem?_append_left hj]
  | call o e m =>
    cases o with
    | node =>
      obtain ⟨r, hr, h⟩ := Res.bind_eq_ok.mp h
      simp only [Res.pure_eq, Res.ok.injEq, Prod.mk.injEq] at h
      obtain ⟨rfl, rfl⟩ := h
      refine ⟨?_, rfl, fun _ _ _ => rfl⟩
      show s.node.run b [_] = _
      rw [nodeRun_one]; exact hr
    | user k =>
      obtain ⟨h1, h2, h3, _⟩ := invoke_user h
      refine ⟨by rw [h1, h2]; rfl, h3, fun hne => absurd rfl (hne k e m)⟩
    | controller =>
      simp only [MultiHost.step, MultiHost.invoke, Res.ok.injEq, Prod.mk.injEq] at h
      obtain ⟨rfl, rfl⟩ := h
      exact ⟨rfl, rfl, fun _ _ _ => rfl⟩
    | device =>
      simp only [MultiHost.step, MultiHost.invoke, Res.ok.injEq, Prod.mk.injEq] at h
      obtain ⟨rfl, rfl⟩ := h
      exact ⟨rfl, rfl, fun _ _ _ => rfl⟩
  | node op =>
    obtain ⟨r, hr, h⟩ := Res.bind_eq_ok.mp h
    simp only [Res.pure_eq, Res.ok.injEq, Prod.mk.injEq] at h
    obtain ⟨rfl, rfl⟩ := h
    refine ⟨?_, rfl, fun _ _ _ => rfl⟩
    show s.node.run b [_] = _
    rw [nodeRun_one]; exact hr
  | search k code ok =>
    simp only [MultiHost.step, Res.ok.injEq, Prod.mk.injEq] at h
    obtain ⟨rfl, rfl⟩ := h
    refine ⟨?_, rfl, fun _ _ _ => rfl⟩
    show s.node.run b [_] = _
    rw [nodeRun_one]; rfl
  | send k r msg free ok =>
    simp only [MultiHost.step, Res.ok.injEq, Prod.mk.injEq] at h
    obtain ⟨rfl, rfl⟩ := h
    refine ⟨?_, rfl, fun _ _ _ => rfl⟩
    cases free with
    | false => rfl
    | true =>
      show s.node.run b [_] = _
      rw [nodeRun_one]; rfl
  | post k r msg ok =>
    simp only [MultiHost.step, Res.ok.injEq, Prod.mk.injEq] at h
    obtain ⟨rfl, rfl⟩ := h
    refine ⟨?_, rfl, fun _ _ _ => rfl⟩
    show s.node.run b [_] = _
    rw [nodeRun_one]; rfl
  | start k menv uenv ok =>
    obtain ⟨r, hr, h⟩ := Res.bind_eq_ok.mp h
    simp only [Res.pure_eq, Res.ok.injEq, Prod.mk.injEq] at h
    obtain ⟨rfl, rfl⟩ := h
    refine ⟨?_, rfl, fun _ _ _ => rfl⟩
    unfold Host.start at hr
    obtain ⟨x, hx, hr⟩ := Res.bind_eq_ok.mp hr
    show s.node.run b [_] = _
    rw [nodeRun_one, nostart (n := s.node) hx]
    split at hr <;> (simp only [Res.pure_eq, Res.ok.injEq] at hr; rw [← hr])
  | stop k =>
    obtain ⟨r, hr, h⟩ := Res.bind_eq_ok.mp h
    simp only [Res.pure_eq, Res.ok.injEq, Prod.mk.injEq] at h
    obtain ⟨rfl, rfl⟩ := h
    exact ⟨stops hr, rfl, fun _ _ _ => rfl⟩
  | drop k =>
    obtain ⟨r, hr, h⟩ := Res.bind_eq_ok.mp h
    simp only [Res.pure_eq, Res.ok.injEq, Prod.mk.injEq] at h
    obtain ⟨rfl, rfl⟩ := h
    exact ⟨stops hr, rfl, fun _ _ _ => rfl⟩

/-- C91: with any number of controllers, devices and observers, in any order of creation and use, the node behaves like
a node alone to which the same requests, messages and registrations are made: everything proved of the histories of a
node (C22, C25-C45, ...) holds with any number of them. -/
theorem C91_node (b : Build) (db : Database) (ops : List (SharedOp S)) (s s' : MultiHost S) (outs : List Out)
    (h : s.run b db ops = .ok (s', outs)) :
    s.node.run b (nodeOps b db s.watchers.length ops) = .ok (s'.node, outs) := by
  induction ops generalizing s outs with
  | nil =>
    simp only [MultiHost.run, Res.ok.injEq, Prod.mk.injEq] at h
    obtain ⟨rfl, rfl⟩ := h
    rfl
  | cons op ops ih =>
    obtain ⟨r, hr, h⟩ := Res.bind_eq_ok.mp h
    obtain ⟨r', hr', h⟩ := Res.bind_eq_ok.mp h
    simp only [Res.pure_eq, Res.ok.injEq, Prod.mk.injEq] at h
    obtain ⟨rfl, rfl⟩ := h
    obtain ⟨h1, h2, _⟩ := shared_step (s := s) (s' := r.1) (outs := r.2) hr
    have h3 := ih r.1 r'.2 hr'
    rw [h2] at h3
    show s.node.run b (_ ++ _) = _
    rw [nodeRun_append, h1]
    simp only [Res.bind_ok]
    rw [h3]
    rfl

/-! ## The lists of the controllers -/

theorem step_controller {b : Build} {ω₀ : HashOrder} {db : Database} (hdb : standardDb b ω₀ = .ok db)
    {s s' : MultiHost S} {op : SharedOp S} {outs : List Out} (hu : SharedUuids op) {k : Nat} {l : List RemoteNode}
    {ms : List Message} (hw : s.watchers[k]? = some (.controller l)) (hi : KnownInv l ms)
    (hs : s.step b db op = .ok (s', outs)) :
    ∃ l', s'.watchers[k]? = some (.controller l') ∧ KnownInv l' (ms ++ profileMessagesTo k [op]) := by
  have hlt : k < s.watchers.length := (List.getElem?_eq_some_iff.mp hw).1
  have other : (∀ i e m, op ≠ .call (.user i) e m) → profileMessagesTo k [op] = [] →
      ∃ l', s'.watchers[k]? = some (.controller l') ∧ KnownInv l' (ms ++ profileMessagesTo k [op]) := by
    intro hne hp
    rw [hp, List.append_nil, (shared_step hs).2.2 hne k hlt]
    exact ⟨l, hw, hi⟩
  cases op with
  | call o e m =>
    cases o with
    | user i =>
      have hinv := invoke_user (s := s) (s' := s') (outs := outs) hs
      by_cases hik : i = k
      · subst hik
        obtain ⟨l', h1, h2⟩ := hinv.2.2.2.2.1 l hw
        obtain ⟨l'', h3, h4⟩ := hi.call hdb hu (ω := e.ω) (free := e.ctrlFree) m
        rw [h1] at h3
        cases h3
        refine ⟨l', h2, ?_⟩
        have : profileMessagesTo i [SharedOp.call (S := S) (.user i) e m] =
            if e.ctrlFree = true ∧ IsProfileMessage m then [m] else [] := by
          unfold profileMessagesTo
          by_cases hc : e.ctrlFree = true ∧ IsProfileMessage m
          · rw [if_pos hc]; simp [hc]
          · rw [if_neg hc]
            simp only [List.filterMap_cons, true_and, if_neg hc, List.filterMap_nil]
        rw [this]; exact h4
      · refine ⟨l, by rw [hinv.2.2.2.1 k (fun h => hik h.symm)]; exact hw, ?_⟩
        have : profileMessagesTo k [SharedOp.call (S := S) (.user i) e m] = [] := by
          simp [profileMessagesTo, hik]
        rw [this, List.append_nil]; exact hi
    | node => exact other (by intros; simp) rfl
    | controller => exact other (by intros; simp) rfl
    | device => exact other (by intros; simp) rfl
  | _ => exact other (by intros; simp) rfl

theorem step_app {b : Build} {db : Database}
    {s s' : MultiHost S} {op : SharedOp S} {outs : List Out} {k : Nat} {ms : List Message}
    (hw : s.watchers[k]? = some (.app ms)) (hs : s.step b db op = .ok (s', outs)) :
    s'.watchers[k]? = some (.app (ms ++ messagesTo k [op])) := by
  have hlt : k < s.watchers.length := (List.getElem?_eq_some_iff.mp hw).1
  have other : (∀ i e m, op ≠ .call (.user i) e m) → messagesTo k [op] = [] →
      s'.watchers[k]? = some (.app (ms ++ messagesTo k [op])) := by
    intro hne hp
    rw [hp, List.append_nil, (shared_step hs).2.2 hne k hlt]
    exact hw
  cases op with
  | call o e m =>
    cases o with
    | user i =>
      have hinv := invoke_user (s := s) (s' := s') (outs := outs) hs
      by_cases hik : i = k
      · subst hik
        rw [hinv.2.2.2.2.2.1 ms hw]
        simp [messagesTo]
      · rw [hinv.2.2.2.1 k (fun h => hik h.symm), hw]
        simp [messagesTo, hik]
    | node => exact other (by intros; simp) rfl
    | controller => exact other (by intros; simp) rfl
    | device => exact other (by intros; simp) rfl
  | _ => exact other (by intros; simp) rfl

theorem run_controller {b : Build} {ω₀ : HashOrder} {db : Database} (hdb : standardDb b ω₀ = .ok db)
    {s s' : MultiHost S} {ops : List (SharedOp S)} {outs : List Out} (hu : ∀ op ∈ ops, SharedUuids op) {k : Nat}
    {l : List RemoteNode} {ms : List Message} (hw : s.watchers[k]? = some (.controller l)) (hi : KnownInv l ms)
    (hs : s.run b db ops = .ok (s', outs)) :
    ∃ l', s'.watchers[k]? = some (.controller l') ∧ KnownInv l' (ms ++ profileMessagesTo k ops) := by
  induction ops generalizing s l ms outs with
  | nil =>
    simp only [MultiHost.run, Res.ok.injEq, Prod.mk.injEq] at hs
    rw [← hs.1]
    exact ⟨l, hw, by simpa [profileMessagesTo] using hi⟩
  | cons op ops ih =>
    obtain ⟨r, hr, hs⟩ := Res.bind_eq_ok.mp hs
    obtain ⟨r', hr', hs⟩ := Res.bind_eq_ok.mp hs
    simp only [Res.pure_eq, Res.ok.injEq, Prod.mk.injEq] at hs
    obtain ⟨l₁, h1, h2⟩ := step_controller hdb (hu op (by simp)) hw hi (s' := r.1) (outs := r.2) hr
    obtain ⟨l₂, h3, h4⟩ := ih (fun x hx => hu x (by simp [hx])) h1 h2 (outs := r'.2) (by rw [← hs.1]; exact hr')
    refine ⟨l₂, h3, ?_⟩
    have : profileMessagesTo k (op :: ops) = profileMessagesTo k [op] ++ profileMessagesTo k ops := by
      unfold profileMessagesTo; rw [← List.filterMap_append]; rfl
    rw [this, ← List.append_assoc]
    exact h4

theorem run_app {b : Build} {db : Database}
    {s s' : MultiHost S} {ops : List (SharedOp S)} {outs : List Out} {k : Nat}
    {ms : List Message} (hw : s.watchers[k]? = some (.app ms)) (hs : s.run b db ops = .ok (s', outs)) :
    s'.watchers[k]? = some (.app (ms ++ messagesTo k ops)) := by
  induction ops generalizing s ms outs with
  | nil =>
    simp only [MultiHost.run, Res.ok.injEq, Prod.mk.injEq] at hs
    rw [← hs.1]
    simpa [messagesTo] using hw
  | cons op ops ih =>
    obtain ⟨r, hr, hs⟩ := Res.bind_eq_ok.mp hs
    obtain ⟨r', hr', hs⟩ := Res.bind_eq_ok.mp hs
    simp only [Res.pure_eq, Res.ok.injEq, Prod.mk.injEq] at hs
    have h1 := step_app hw (s' := r.1) (outs := r.2) hr
    have h3 := ih h1 (outs := r'.2) (by rw [← hs.1]; exact hr')
    have : messagesTo k (op :: ops) = messagesTo k [op] ++ messagesTo k ops := by
      unfold messagesTo; rw [← List.filterMap_append]; rfl
    rw [h3, this, ← List.append_assoc]

theorem shared_remotes {s : MultiHost S} {k : Nat} {l : List RemoteNode} (h : s.watchers[k]? = some (.controller l)) :
    (s.host k).remotes = l := by
  simp [MultiHost.host, MultiHost.remotes, h]

/-- C91: a controller made with `Controller::new_with_node` on a node that may have any number of other controllers,
devices and observers, now and later: over every history, `nodes()` of this controller lists exactly the senders of the
profile messages that were handed to this controller, each once, ordered by their last message, each with the object
codes of its last message. Nothing the others do or are told (searching, sending, stopping, being dropped) changes it. -/
theorem C91_lists (b : Build) (ω₀ : HashOrder) (db : Database) (hdb : standardDb b ω₀ = .ok db)
    (s s' : MultiHost S) (ops : List (SharedOp S)) (hu : ∀ op ∈ ops, SharedUuids op) (outs : List Out)
    (hrun : s.newController.run b db ops = .ok (s', outs)) (k : Nat) (hk : k = s.watchers.length) (ω : HashOrder) :
    ∃ l, s'.nodes b ω k = .ok l ∧
      (l.map RemoteNode.addr).Nodup ∧
      (∀ a, a ∈ l.map RemoteNode.addr ↔ ∃ m ∈ profileMessagesTo k ops, m.sender = a) ∧
      l.map RemoteNode.addr = lastOccurrences ((profileMessagesTo k ops).map (fun m => m.sender)) ∧
      (∀ r ∈ l, ∃ m, ((profileMessagesTo k ops).filter (fun m => m.sender = r.addr)).getLast? = some m ∧
        r.objects.map (fun o => o.code.toNat) = announcedCodes m ++ [0x0EF001]) := by
  subst hk
  obtain ⟨l, h1, h2⟩ := run_controller hdb hu (s := s.newController) (k := s.watchers.length) (l := [])
    (by simp [MultiHost.newController]) knownInv_nil hrun
  rw [List.nil_append] at h2
  exact known_list b ω (h := s'.host s.watchers.length) (by rw [shared_remotes h1]; exact h2)

/-- C91: an observer of the application has seen exactly the messages handed to it, in order. -/
theorem C91_observer (b : Build) (db : Database) (s s' : MultiHost S) (ops : List (SharedOp S)) (outs : List Out)
    (hrun : s.newObserver.run b db ops = .ok (s', outs)) (k : Nat) (hk : k = s.watchers.length) :
    s'.seenBy k = messagesTo k ops := by
  subst hk
  have := run_app (s := s.newObserver) (k := s.watchers.length) (ms := []) (by simp [MultiHost.newObserver]) hrun
  simp [MultiHost.seenBy, this]

/-! ## Reception -/

/-- What making controllers, devices and observers on a node that is not running leads to. -/
theorem making_run {b : Build} {ω₀ : HashOrder} {db : Database} (hdb : standardDb b ω₀ = .ok db)
    {makes : List (SharedOp S)} (hm : ∀ op ∈ makes, isMaking op = true) (hu : ∀ op ∈ makes, SharedUuids op)
    {s s' : MultiHost S} {outs : List Out} (hi : ProfileInv s.node)
    (hrun : s.run b db makes = .ok (s', outs)) :
    ProfileInv s'.node ∧ s'.node.transport = s.node.transport ∧
    s'.watchers.length = s.watchers.length + makes.length ∧
    (∃ new, s'.node.observers = s.node.observers ++ new ∧ new.count .node = makes.countP isOwner ∧
      ∀ i, new.count (.user i) = if s.watchers.length ≤ i ∧ i < s.watchers.length + makes.length then 1 else 0) ∧
    (∀ i, i < s.watchers.length → s'.watchers[i]? = s.watchers[i]?) ∧
    (∀ i, s'.watchers[s.watchers.length + i]? = (makes[i]?).map (fun op => match op with
      | .newController => .controller []
      | .newObserver => .app []
      | _ => .device)) ∧
    (∃ cs, s'.node.objects.map Object.code = s.node.objects.map Object.code ++ cs ∧
      ∀ c ∈ cs, ∃ u₁ u₂ ω code, SharedOp.newDevice u₁ u₂ ω code ∈ makes ∧ c.toNat = code.toNat % 2 ^ 24) := by
  induction makes generalizing s outs with
  | nil =>
    simp only [MultiHost.run, Res.ok.injEq, Prod.mk.injEq] at hrun
    obtain ⟨rfl, rfl⟩ := hrun
    refine ⟨hi, rfl, rfl, ⟨[], by simp, rfl, ?_⟩, fun _ _ => rfl, ?_, ⟨[], by simp, by simp⟩⟩
    · intro i
      have : ¬ (s.watchers.length ≤ i ∧ i < s.watchers.length + 0) := by omega
      simp
    · intro i; simp
  | cons op makes ih =>
    obtain ⟨r, hr, hs⟩ := Res.bind_eq_ok.mp hrun
    obtain ⟨r', hr', hs⟩ := Res.bind_eq_ok.mp hs
    simp only [Res.pure_eq, Res.ok.injEq, Prod.mk.injEq] at hs
    obtain ⟨rfl, rfl⟩ := hs
    have hop := hm op (by simp)
    have huo := hu op (by simp)
    -- one step
    have one : ProfileInv r.1.node ∧ r.1.node.transport = s.node.transport ∧
        (∃ w, r.1.watchers = s.watchers ++ [w] ∧ w = (match op with
          | .newController => Watcher.controller []
          | .newObserver => .app []
          | _ => .device)) ∧
        r.1.node.observers = s.node.observers ++ ((if isOwner op then [ObserverRef.node] else []) ++
          [.user s.watchers.length]) ∧
        ∃ cs, r.1.node.objects.map Object.code = s.node.objects.map Object.code ++ cs ∧
          ∀ c ∈ cs, ∃ u₁ u₂ ω code, op = .newDevice u₁ u₂ ω code ∧ c.toNat = code.toNat % 2 ^ 24 := by
      have keep : ∀ {n : Node S}, n.objects = s.node.objects → n.handlers = s.node.handlers → ProfileInv n := by
        intro n h1 h2
        exact ⟨by rw [h1]; exact hi.keys, by rw [h2]; exact hi.passive, by rw [h2]; exact hi.builtin, by rw [h1]; exact hi.shape⟩
      cases op with
      | newController =>
        simp only [MultiHost.step, Res.ok.injEq] at hr
        subst hr
        exact ⟨keep rfl rfl, rfl, ⟨_, rfl, rfl⟩, by simp [MultiHost.newController, Node.addObserver, isOwner], [],
          by simp [MultiHost.newController, Node.addObserver], by simp⟩
      | newObserver =>
        simp only [MultiHost.step, Res.ok.injEq] at hr
        subst hr
        exact ⟨keep rfl rfl, rfl, ⟨_, rfl, rfl⟩, by simp [MultiHost.newObserver, Node.addObserver, isOwner], [],
          by simp [MultiHost.newObserver, Node.addObserver], by simp⟩
      | newDevice u₁ u₂ ω code =>
        obtain ⟨x, hx, hr⟩ := Res.bind_eq_ok.mp hr
        simp only [Res.pure_eq, Res.ok.injEq] at hr
        subst hr
        unfold MultiHost.newDevice at hx
        obtain ⟨o, ho, hx⟩ := Res.bind_eq_ok.mp hx
        obtain ⟨n, hn, hx⟩ := Res.bind_eq_ok.mp hx
        simp only [Res.pure_eq, Res.ok.injEq] at hx
        subst hx
        obtain ⟨o', ho', hcode, _, hk, _⟩ := deviceObject_spec hdb huo.1 huo.2 ω code
        rw [ho] at ho'
        cases ho'
        have hstep := step_inv (b := b) (op := .addObject o)
          (n := (s.node.addObserver .node).addObserver (.user s.watchers.length)) (keep rfl rfl) hk (n' := n) (outs := [])
          (by simp only [Node.step, hn, Res.bind_ok, Res.pure_eq])
        have hf := addObject_frame hn
        refine ⟨hstep.1, by rw [hf]; rfl, ⟨_, rfl, rfl⟩, by rw [hf]; simp [Node.addObserver, isOwner], [o.code], ?_, ?_⟩
        · show n.objects.map Object.code = _
          rw [hstep.2]; rfl
        · intro c hc
          rw [List.mem_singleton.mp hc]
          exact ⟨u₁, u₂, ω, code, rfl, hcode⟩
      | _ => exact absurd hop (by simp [isMaking])
    obtain ⟨p1, p2, ⟨w, p3, p4⟩, p5, cs, p6, p7⟩ := one
    obtain ⟨q1, q2, q3, ⟨new, q4, q5, q6⟩, q7, q8, cs', q9, q10⟩ :=
      ih (fun x hx => hm x (by simp [hx])) (fun x hx => hu x (by simp [hx])) p1 (outs := r'.2) hr'
    have hlen : r.1.watchers.length = s.watchers.length + 1 := by rw [p3]; simp
    refine ⟨q1, q2.trans p2, by rw [q3, hlen]; simp; omega,
      ⟨((if isOwner op then [ObserverRef.node] else []) ++ [.user s.watchers.length]) ++ new, ?_, ?_, ?_⟩, ?_, ?_, ⟨cs ++ cs', ?_, ?_⟩⟩
    · rw [q4, p5, List.append_assoc]
    · rw [List.count_append, q5, List.countP_cons]
      cases isOwner op <;> simp [Nat.add_comm]
    · intro i
      rw [List.count_append, q6 i, hlen, List.length_cons]
      have h1 : List.count (ObserverRef.user i) ((if isOwner op then [ObserverRef.node] else []) ++
          [.user s.watchers.length]) = if i = s.watchers.length then 1 else 0 := by
        by_cases hi : i = s.watchers.length
        · cases isOwner op <;> simp [hi]
        · have h2 : ¬ s.watchers.length = i := fun h => hi h.symm
          cases isOwner op <;> simp [hi, h2, List.count_cons]
      rw [h1]
      split <;> split <;> split <;> omega
    · intro i hlt
      rw [q7 i (by omega), p3, List.getElem?_append_left hlt]
    · intro i
      cases i with
      | zero =>
        rw [Nat.add_zero, q7 _ (by omega), p3]
        simp [p4]
      | succ i =>
        have := q8 i
        rw [hlen] at this
        rw [show s.watchers.length + (i + 1) = s.watchers.length + 1 + i by omega, this]
        simp
    · rw [q9, p6, List.append_assoc]
    · intro c hc
      rcases List.mem_append.mp hc with hc | hc
      · obtain ⟨u₁, u₂, ω, code, h1, h2⟩ := p7 c hc
        exact ⟨u₁, u₂, ω, code, by simp [h1], h2⟩
      · obtain ⟨u₁, u₂, ω, code, h1, h2⟩ := q10 c hc
        exact ⟨u₁, u₂, ω, code, by simp [h1], h2⟩

theorem notify_run {b : Build} {db : Database} (obs : List ObserverRef) (env : Nat → CallEnv) (m : Message)
    (s : MultiHost S) : s.notifyObservers b db env m obs = s.run b db (notifyCalls env m obs) := by
  induction obs generalizing s env with
  | nil => rfl
  | cons o obs ih =>
    simp only [MultiHost.notifyObservers, notifyCalls, MultiHost.run, ih]
    rfl

theorem sharedRun_append {b : Build} {db : Database} {s : MultiHost S} {l₁ l₂ : List (SharedOp S)} :
    s.run b db (l₁ ++ l₂) = (do
      let r ← s.run b db l₁
      let r' ← r.1.run b db l₂
      pure (r'.1, r.2 ++ r'.2)) := by
  induction l₁ generalizing s with
  | nil =>
    simp only [List.nil_append, MultiHost.run, Res.bind_ok]
    cases s.run b db l₂ with
    | panic => rfl
    | ok r => simp
  | cons op l ih =>
    simp only [List.cons_append, MultiHost.run]
    cases s.step b db op with
    | panic => rfl
    | ok r =>
      simp only [Res.bind_ok, ih]
      cases r.1.run b db l with
      | panic => rfl
      | ok r' =>
        simp only [Res.bind_ok, Res.pure_eq]
        cases r'.1.run b db l₂ with
        | panic => rfl
        | ok r'' => simp

theorem serve_run {b : Build} {db : Database} (obs : List ObserverRef) (env : Nat → Nat → CallEnv) (ms : List Message)
    (s : MultiHost S) : s.serve b db obs env ms = s.run b db (serveCalls obs env ms) := by
  induction ms generalizing s env with
  | nil => rfl
  | cons m ms ih =>
    simp only [MultiHost.serve, serveCalls, sharedRun_append, notify_run, ih]

theorem notifyCalls_mem {obs : List ObserverRef} {env : Nat → CallEnv} {m : Message} {op : SharedOp S}
    (h : op ∈ notifyCalls env m obs) : ∃ o i, op = .call o (env i) m := by
  induction obs generalizing env with
  | nil => cases h
  | cons o obs ih =>
    rcases List.mem_cons.mp h with h | h
    · exact ⟨o, 0, h⟩
    · obtain ⟨o', i, h⟩ := ih h
      exact ⟨o', i + 1, h⟩

theorem serveCalls_mem {obs : List ObserverRef} {env : Nat → Nat → CallEnv} {ms : List Message} {op : SharedOp S}
    (h : op ∈ serveCalls obs env ms) : ∃ o i j m, op = .call o (env i j) m := by
  induction ms generalizing env with
  | nil => cases h
  | cons m ms ih =>
    rcases List.mem_append.mp h with h | h
    · obtain ⟨o, j, h⟩ := notifyCalls_mem h
      exact ⟨o, 0, j, m, h⟩
    · obtain ⟨o', i, j, m', h⟩ := ih h
      exact ⟨o', i + 1, j, m', h⟩

theorem profileMessagesTo_append (k : Nat) (l₁ l₂ : List (SharedOp S)) :
    profileMessagesTo k (l₁ ++ l₂) = profileMessagesTo k l₁ ++ profileMessagesTo k l₂ := by
  simp [profileMessagesTo]

theorem messagesTo_append (k : Nat) (l₁ l₂ : List (SharedOp S)) :
    messagesTo k (l₁ ++ l₂) = messagesTo k l₁ ++ messagesTo k l₂ := by
  simp [messagesTo]

theorem profileMessagesTo_notify (k : Nat) {obs : List ObserverRef} {env : Nat → CallEnv} (m : Message)
    (hfree : ∀ i, (env i).ctrlFree = true) :
    profileMessagesTo (S := S) k (notifyCalls env m obs) =
      if IsProfileMessage m then List.replicate (obs.count (.user k)) m else [] := by
  induction obs generalizing env with
  | nil => simp [notifyCalls, profileMessagesTo]
  | cons o obs ih =>
    have h1 : profileMessagesTo (S := S) k (notifyCalls env m (o :: obs)) =
        profileMessagesTo (S := S) k [.call o (env 0) m] ++
          profileMessagesTo (S := S) k (notifyCalls (fun i => env (i + 1)) m obs) := by
      rw [← profileMessagesTo_append]; rfl
    rw [h1, ih (fun i => hfree (i + 1))]
    by_cases ho : o = .user k
    · subst ho
      by_cases hp : IsProfileMessage m
      · simp [profileMessagesTo, hfree 0, hp, List.replicate_succ]
      · simp [profileMessagesTo, hp]
    · rw [List.count_cons_of_ne ho]
      have : profileMessagesTo (S := S) k [.call o (env 0) m] = [] := by
        cases o with
        | user i =>
          have : i ≠ k := fun h => ho (by rw [h])
          simp [profileMessagesTo, this]
        | _ => rfl
      rw [this, List.nil_append]

theorem messagesTo_notify (k : Nat) {obs : List ObserverRef} {env : Nat → CallEnv} (m : Message) :
    messagesTo (S := S) k (notifyCalls env m obs) = List.replicate (obs.count (.user k)) m := by
  induction obs generalizing env with
  | nil => rfl
  | cons o obs ih =>
    have h1 : messagesTo (S := S) k (notifyCalls env m (o :: obs)) =
        messagesTo (S := S) k [.call o (env 0) m] ++
          messagesTo (S := S) k (notifyCalls (fun i => env (i + 1)) m obs) := by
      rw [← messagesTo_append]; rfl
    rw [h1, ih]
    by_cases ho : o = .user k
    · subst ho
      simp [messagesTo, List.replicate_succ]
    · rw [List.count_cons_of_ne ho]
      have : messagesTo (S := S) k [.call o (env 0) m] = [] := by
        cases o with
        | user i =>
          have : i ≠ k := fun h => ho (by rw [h])
          simp [messagesTo, this]
        | _ => rfl
      rw [this, List.nil_append]

theorem profileMessagesTo_serve (k : Nat) {obs : List ObserverRef} (h1 : obs.count (.user k) = 1)
    {env : Nat → Nat → CallEnv} (ms : List Message) (hfree : ∀ i j, (env i j).ctrlFree = true) :
    profileMessagesTo (S := S) k (serveCalls obs env ms) = ms.filter (fun m => IsProfileMessage m) := by
  induction ms generalizing env with
  | nil => rfl
  | cons m ms ih =>
    rw [serveCalls, profileMessagesTo_append, profileMessagesTo_notify k m (hfree 0), ih (fun i => hfree (i + 1)), h1]
    by_cases hp : IsProfileMessage m <;> simp [hp]

theorem messagesTo_serve (k : Nat) {obs : List ObserverRef} (h1 : obs.count (.user k) = 1)
    {env : Nat → Nat → CallEnv} (ms : List Message) :
    messagesTo (S := S) k (serveCalls obs env ms) = ms := by
  induction ms generalizing env with
  | nil => rfl
  | cons m ms ih =>
    rw [serveCalls, messagesTo_append, messagesTo_notify k m, ih, h1]
    simp

/-- The observers of the servers after the start. -/
theorem start_observers {b : Build} {db : Database} {s s' : MultiHost S} {k : Nat} {menv uenv : List IfOutcome}
    {ok : Nat → Bool} {outs : List Out} (htr : s.node.transport = Manager.new)
    (hstart : s.step b db (.start k menv uenv ok) = .ok (s', outs)) (hr : s'.node.isRunning = true) :
    s'.watchers = s.watchers ∧ ∀ sv ∈ servers s'.node, sv.observers = s.node.observers := by
  have h1 := (shared_step hstart).1
  have hstep : s.node.step b (.start menv uenv ok) = .ok (s'.node, outs) := by
    rw [← nodeRun_one]; exact h1
  refine ⟨?_, ?_⟩
  · obtain ⟨r, hr, h⟩ := Res.bind_eq_ok.mp hstart
    simp only [Res.pure_eq, Res.ok.injEq, Prod.mk.injEq] at h
    rw [← h.1]
  · have hnr : s.node.isRunning = false := by unfold Node.isRunning; rw [htr]; rfl
    have hl := step_ledger (b := b) (l := ⟨s.node.observers, []⟩) (fun _ => htr) rfl
      (by unfold servers; rw [htr]; simp [Manager.new]) hstep
    intro sv hsv
    rw [hl.2.2 sv hsv]
    simp [Ledger.step, hr, hnr]

/-- C91: any number of controllers, devices and observers are made on a new node, in any order, and then the node is
started through any of them. Every server then calls each of them exactly once for every message, and so all the
controllers know the same nodes, those that sent a profile message, and every observer sees every message once. (The
controllers' mutexes are supposed to be free when messages arrive; C51 says what happens otherwise.) -/
theorem C91_served (b : Build) (ω₀ : HashOrder) (db : Database) (hdb : standardDb b ω₀ = .ok db)
    (uuid₁ uuid₂ : List UInt8) (hu₁ : uuid₁.length = 16) (hu₂ : uuid₂.length = 16) (ω : HashOrder) (app : S)
    (n₀ : Node S) (hnew : Node.new b db uuid₁ uuid₂ ω app = .ok n₀)
    (makes : List (SharedOp S)) (hm : ∀ op ∈ makes, isMaking op = true) (hu : ∀ op ∈ makes, SharedUuids op)
    (s₁ s₂ : MultiHost S) (o₁ o₂ : List Out) (hmake : (⟨n₀, []⟩ : MultiHost S).run b db makes = .ok (s₁, o₁))
    (k : Nat) (menv uenv : List IfOutcome) (ok : Nat → Bool)
    (hstart : s₁.step b db (.start k menv uenv ok) = .ok (s₂, o₂)) (hr : s₂.node.isRunning = true)
    (sv : Server) (hsv : sv ∈ servers s₂.node) :
    (∀ i, sv.observers.count (.user i) = if i < makes.length then 1 else 0) ∧
    ∀ (env : Nat → Nat → CallEnv) (ms : List Message) (s₃ : MultiHost S) (outs : List Out),
      (∀ i j, (env i j).ctrlFree = true) → (∀ i j l, ((env i j).uuid l).length = 16) →
      s₂.serve b db sv.observers env ms = .ok (s₃, outs) →
      (∀ i ω', makes[i]? = some .newController →
        ∃ l, s₃.nodes b ω' i = .ok l ∧ l.map entry = knownNodes (ms.filter (fun m => IsProfileMessage m))) ∧
      (∀ i, makes[i]? = some .newObserver → s₃.seenBy i = ms) := by
  obtain ⟨n₀', hn₀, hinv, hcodes, hobs, _, htr, _⟩ := newNode_inv hdb hu₁ hu₂ ω app
  rw [hnew] at hn₀
  cases hn₀
  obtain ⟨p1, p2, p3, ⟨new, p4, p5, p6⟩, p7, p8, _⟩ := making_run hdb hm hu (s := ⟨n₀, []⟩) hinv hmake
  obtain ⟨q1, q2⟩ := start_observers (p2.trans htr) hstart hr
  have hso : sv.observers = new := by
    rw [q2 sv hsv, p4]
    show n₀.observers ++ new = new
    rw [hobs]; rfl
  have hcount : ∀ i, sv.observers.count (.user i) = if i < makes.length then 1 else 0 := by
    intro i
    rw [hso, p6 i]
    simp
  refine ⟨hcount, ?_⟩
  intro env ms s₃ outs hfree huu hserve
  rw [serve_run] at hserve
  have hw : ∀ i : Nat, s₂.watchers[i]? = (makes[i]?).map (fun op => match op with
      | .newController => .controller []
      | .newObserver => .app []
      | _ => .device) := by
    intro i
    rw [q1]
    have := p8 i
    simpa using this
  refine ⟨?_, ?_⟩
  · intro i ω' hi
    have hlt : i < makes.length := (List.getElem?_eq_some_iff.mp hi).1
    obtain ⟨l, h1, h2⟩ := run_controller hdb (fun op hop => by
      obtain ⟨o, x, y, m, rfl⟩ := serveCalls_mem hop
      exact huu x y) (k := i) (l := []) (by rw [hw i, hi]; rfl) knownInv_nil hserve
    rw [List.nil_append, profileMessagesTo_serve i (by rw [hcount i, if_pos hlt]) ms hfree] at h2
    obtain ⟨l', h3, h4⟩ := nodes_eq b ω' (h := s₃.host i) (by rw [shared_remotes h1]; exact h2.std)
    exact ⟨l', h3, by rw [h4, shared_remotes h1]; exact h2.entries⟩
  · intro i hi
    have hlt : i < makes.length := (List.getElem?_eq_some_iff.mp hi).1
    have h1 := run_app (k := i) (ms := []) (by rw [hw i, hi]; rfl) hserve
    rw [List.nil_append, messagesTo_serve i (by rw [hcount i, if_pos hlt]) ms] at h1
    simp [MultiHost.seenBy, h1]

/-- A read request for the instance list is answered once for every time the node is in the list. -/
theorem shared_replies {b : Build} {db : Database} (obs : List ObserverRef)
    (env : Nat → CallEnv) (hfree : ∀ i, (env i).nodeFree = true) {msg : Message} (hesv : msg.esvByte = 0x62)
    (hdeoj : msg.deoj = profileCode) (hprops : msg.properties = [⟨0xD6, []⟩]) (s : MultiHost S)
    (hi : ProfileInv s.node)
    (hone : ∀ c ∈ (s.node.objects.map Object.code).tail, c ≠ profileCode) :
    ∃ s' outs, s.notifyObservers b db env msg obs = .ok (s', outs) ∧
      (replies outs).length = obs.count .node := by
  induction obs generalizing s env with
  | nil => exact ⟨_, _, rfl, rfl⟩
  | cons o obs ih =>
    have hfree' : ∀ i, (env (i + 1)).nodeFree = true := fun i => hfree (i + 1)
    have idle : ∀ s₁ : MultiHost S, s.invoke b db (env 0) msg o = .ok (s₁, []) → s₁.node = s.node → o ≠ .node →
        ∃ s' outs, s.notifyObservers b db env msg (o :: obs) = .ok (s', outs) ∧
          (replies outs).length = (o :: obs).count .node := by
      intro s₁ hinv hnode hne
      obtain ⟨s', outs, h1, h2⟩ := ih (fun i => env (i + 1)) hfree' s₁ (by rw [hnode]; exact hi)
        (by rw [hnode]; exact hone)
      refine ⟨s', outs, ?_, ?_⟩
      · simp only [MultiHost.notifyObservers, hinv, Res.bind_ok, h1, List.nil_append, Res.pure_eq]
      · rw [h2, List.count_cons_of_ne hne]
    cases o with
    | controller => exact idle s rfl rfl (by simp)
    | device => exact idle s rfl rfl (by simp)
    | user k =>
      have hnp : ¬ IsProfileMessage msg := by
        unfold IsProfileMessage; rw [hesv]; simp
      cases hw : s.watchers[k]? with
      | none => exact idle s (by simp only [MultiHost.invoke, hw]) rfl (by simp)
      | some w =>
        cases w with
        | device => exact idle s (by simp only [MultiHost.invoke, hw]) rfl (by simp)
        | app ms =>
          exact idle { s with watchers := s.watchers.set k (.app (ms ++ [msg])) }
            (by simp only [MultiHost.invoke, hw]) rfl (by simp)
        | controller l =>
          exact idle { s with watchers := s.watchers.set k (.controller l) }
            (by simp only [MultiHost.invoke, hw, observeController_other b db (env 0).ω (env 0).uuid (env 0).ctrlFree l
                  (Or.inr hnp), Res.bind_ok, Res.pure_eq]) rfl (by simp)
    | node =>
      obtain ⟨n', outs, u, d, hobs, hrep, _⟩ := profile_read (b := b) (env 0).ω (env 0).ok hi (by
        intro np ds ho o hmem hoc
        refine hone o.code ?_ hoc
        rw [ho]
        exact List.mem_map_of_mem hmem) hesv hdeoj hprops
      have hstep := step_inv (b := b) (n := s.node) (op := .receive msg true (env 0).ω (env 0).ok) hi trivial
        (n' := n') (outs := outs) hobs
      have hcodes : n'.objects.map Object.code = s.node.objects.map Object.code := by
        rw [hstep.2]; simp [addedCodes]
      obtain ⟨s', outs', h1, h2⟩ := ih (fun i => env (i + 1)) hfree' { s with node := n' } hstep.1
        (by show ∀ c ∈ (n'.objects.map Object.code).tail, _; rw [hcodes]; exact hone)
      refine ⟨s', outs ++ outs', ?_, ?_⟩
      · simp only [MultiHost.notifyObservers, MultiHost.invoke, Node.observeTry, hfree 0, Bool.not_true, Bool.false_eq_true,
          if_false, hobs, Res.bind_ok, Res.pure_eq]
        simp only [h1, Res.bind_ok]
      · rw [List.count_cons_self, ← h2]
        have : replies (outs ++ outs') = replies outs ++ replies outs' := by
          simp [replies, handed_append]
        rw [this, hrep, List.length_append]; simp [Nat.add_comm]

/-- C91 is false for the node itself: every controller and every device registers the node once more, so that a node with
any number of them, made before the start, handles every message as often as it has controllers and devices. The read
request for its instance list is answered that many times, for instance. -/
theorem C91_replies_fails (b : Build) (ω₀ : HashOrder) (db : Database) (hdb : standardDb b ω₀ = .ok db)
    (uuid₁ uuid₂ : List UInt8) (hu₁ : uuid₁.length = 16) (hu₂ : uuid₂.length = 16) (ω : HashOrder) (app : S)
    (n₀ : Node S) (hnew : Node.new b db uuid₁ uuid₂ ω app = .ok n₀)
    (makes : List (SharedOp S)) (hm : ∀ op ∈ makes, isMaking op = true) (hu : ∀ op ∈ makes, SharedUuids op)
    (hcode : ∀ u₁ u₂ ω code, SharedOp.newDevice u₁ u₂ ω code ∈ makes → code.toNat % 2 ^ 24 ≠ 0x0EF001)
    (s₁ s₂ : MultiHost S) (o₁ o₂ : List Out) (hmake : (⟨n₀, []⟩ : MultiHost S).run b db makes = .ok (s₁, o₁))
    (k : Nat) (menv uenv : List IfOutcome) (ok : Nat → Bool)
    (hstart : s₁.step b db (.start k menv uenv ok) = .ok (s₂, o₂)) (hr : s₂.node.isRunning = true)
    (sv : Server) (hsv : sv ∈ servers s₂.node) (env : Nat → CallEnv) (hfree : ∀ i, (env i).nodeFree = true)
    (msg : Message) (hesv : msg.esvByte = 0x62) (hdeoj : msg.deoj = 0x0EF001) (hprops : msg.properties = [⟨0xD6, []⟩]) :
    ∃ s' outs, s₂.notifyObservers b db env msg sv.observers = .ok (s', outs) ∧
      (replies outs).length = makes.countP isOwner := by
  obtain ⟨n₀', hn₀, hinv, hcodes, hobs, _, htr, _⟩ := newNode_inv hdb hu₁ hu₂ ω app
  rw [hnew] at hn₀
  cases hn₀
  obtain ⟨p1, p2, p3, ⟨new, p4, p5, p6⟩, p7, p8, cs, p9, p10⟩ := making_run hdb hm hu (s := ⟨n₀, []⟩) hinv hmake
  obtain ⟨q1, q2⟩ := start_observers (p2.trans htr) hstart hr
  have hso : sv.observers = new := by
    rw [q2 sv hsv, p4]
    show n₀.observers ++ new = new
    rw [hobs]; rfl
  have hstep : s₁.node.step b (.start menv uenv ok) = .ok (s₂.node, o₂) := by
    rw [← nodeRun_one]; exact (shared_step hstart).1
  have hin := step_inv (b := b) p1 (op := .start menv uenv ok) trivial hstep
  rw [hso, ← p5]
  refine shared_replies new env hfree hesv hdeoj hprops s₂ hin.1 ?_
  rw [hin.2, p9]
  show ∀ c ∈ ((n₀.objects.map Object.code ++ cs) ++ addedCodes [Op.start menv uenv ok]).tail, _
  rw [hcodes]
  intro c hc
  simp only [addedCodes, List.filterMap_cons, List.filterMap_nil, List.append_nil, List.cons_append, List.nil_append,
    List.tail_cons] at hc
  obtain ⟨u₁, u₂, ω', code, h1, h2⟩ := p10 c hc
  intro h3
  rw [h3] at h2
  exact hcode u₁ u₂ ω' code h1 h2.symm

/-- C91 is false for a controller made while the node is running: it knows no node, whatever is received, until the node
is started again. -/
theorem C91_late_fails (b : Build) (db : Database) (s : MultiHost S) (k : Nat) (hk : k = s.watchers.length)
    (hs : ∀ sv ∈ servers s.node, ObserverRef.user k ∉ sv.observers)
    (sv : Server) (hsv : sv ∈ servers s.newController.node) (env : Nat → Nat → CallEnv) (ms : List Message)
    (s' : MultiHost S) (outs : List Out) (hserve : s.newController.serve b db sv.observers env ms = .ok (s', outs))
    (ω : HashOrder) : s'.nodes b ω k = .ok [] := by
  subst hk
  have hno : ObserverRef.user s.watchers.length ∉ sv.observers := hs sv hsv
  rw [serve_run] at hserve
  have key : ∀ (ops : List (SharedOp S)) (s₁ : MultiHost S) (outs : List Out),
      (∀ op ∈ ops, ∃ o e m, op = .call o e m ∧ o ≠ .user s.watchers.length) →
      s₁.watchers[s.watchers.length]? = some (.controller []) → s₁.run b db ops = .ok (s', outs) →
      s'.watchers[s.watchers.length]? = some (.controller []) := by
    intro ops
    induction ops with
    | nil =>
      intro s₁ outs _ hw h
      simp only [MultiHost.run, Res.ok.injEq, Prod.mk.injEq] at h
      rw [← h.1]; exact hw
    | cons op ops ih =>
      intro s₁ outs ho hw h
      obtain ⟨r, hr, h⟩ := Res.bind_eq_ok.mp h
      obtain ⟨r', hr', h⟩ := Res.bind_eq_ok.mp h
      simp only [Res.pure_eq, Res.ok.injEq, Prod.mk.injEq] at h
      refine ih r.1 r'.2 (fun x hx => ho x (by simp [hx])) ?_ (by rw [← h.1]; exact hr')
      obtain ⟨o, e, m, rfl, hne⟩ := ho op (by simp)
      cases o with
      | user i =>
        have := invoke_user (s := s₁) (s' := r.1) (outs := r.2) hr
        rw [this.2.2.2.1 s.watchers.length (fun h => hne (by rw [h]))]; exact hw
      | _ =>
        rw [(shared_step (s := s₁) (s' := r.1) (outs := r.2) hr).2.2 (by intros; simp) _
          (List.getElem?_eq_some_iff.mp hw).1]
        exact hw
  have hmem : ∀ op ∈ serveCalls (S := S) sv.observers env ms,
      ∃ o e m, op = .call o e m ∧ o ≠ .user s.watchers.length := by
    have hn : ∀ (obs : List ObserverRef) (env : Nat → CallEnv) (m : Message),
        ObserverRef.user s.watchers.length ∉ obs → ∀ op ∈ notifyCalls (S := S) env m obs,
          ∃ o e m, op = .call o e m ∧ o ≠ .user s.watchers.length := by
      intro obs
      induction obs with
      | nil => intro _ _ _ op h; cases h
      | cons o obs ih =>
        intro env m hn op h
        rcases List.mem_cons.mp h with h | h
        · exact ⟨o, _, _, h, fun h' => hn (by simp [h'])⟩
        · exact ih _ m (fun h' => hn (by simp [h'])) op h
    intro op h
    clear hserve
    induction ms generalizing env with
    | nil => cases h
    | cons m ms ih =>
      rcases List.mem_append.mp h with h | h
      · exact hn _ _ m hno op h
      · exact ih _ h
  have := key _ _ _ hmem (by simp [MultiHost.newController]) hserve
  unfold MultiHost.nodes Host.nodes
  rw [shared_remotes this]
  rfl

/-- C91 is false for stopping: stopping or dropping any one controller stops the node for all of them. (What each of them
knows stays, as in C48.) -/
theorem C91_stop_fails (b : Build) (db : Database) (s : MultiHost S) (k : Nat) (ht : ThreadsOk s.node.transport)
    (op : SharedOp S) (hop : op = .stop k ∨ op = .drop k) :
    ∃ s', s.step b db op = .ok (s', []) ∧ s'.node.isRunning = false ∧ servers s'.node = [] ∧
      (∀ o ∈ s'.node.objects, ∀ p, o.properties 0x80 = some p → p.data = [0x31]) ∧
      ∀ j ω, s'.nodes b ω j = s.nodes b ω j := by
  have hs := (C42_stop s.node).1 ht
  have hstop : (s.host k).stop = .ok (true, ⟨{ s.node with objects := s.node.objects.map (mapProperties stoppedProperty), transport := ⟨[], []⟩ },
      s.remotes k, []⟩) := by
    unfold Host.stop
    have : (s.host k).node.stop = _ := hs
    simp only [this, Res.bind_ok]
    rfl
  refine ⟨{ s with node := { s.node with objects := s.node.objects.map (mapProperties stoppedProperty), transport := ⟨[], []⟩ } }, ?_, rfl,
    rfl, ?_, fun _ _ => rfl⟩
  · rcases hop with rfl | rfl <;> simp only [MultiHost.step, hstop, Res.bind_ok, Res.pure_eq]
  · intro o ho p hp
    obtain ⟨o', _, rfl⟩ := List.mem_map.mp ho
    obtain ⟨q, _, rfl⟩ := Option.map_eq_some_iff.mp hp
    rfl

/-! ## Posted requests -/

/-- Only steps that post make the node post, and only calls of the node's observer hand it messages. -/
theorem nodeOps_mem {b : Build} {db : Database} {i : Nat} {ops : List (SharedOp S)} {x : Op S}
    (h : x ∈ nodeOps b db i ops) :
    (∀ to m ok, x = .post to m ok → ∃ op ∈ ops, isPost op = true) ∧
    (∀ m ω ok, x = .receive m true ω ok → ∃ op ∈ ops, handsToNode op = some m) := by
  induction ops generalizing i with
  | nil => cases h
  | cons op ops ih =>
    rcases List.mem_append.mp h with h | h
    · refine ⟨?_, ?_⟩
      · rintro to m ok rfl
        refine ⟨op, by simp, ?_⟩
        cases op with
        | call o e m' => cases o <;> simp [nodeOp] at h
        | newDevice u₁ u₂ ω c =>
          simp only [nodeOp] at h
          split at h <;> simp at h
        | send k r m' free ok' =>
          simp only [nodeOp] at h
          split at h <;> simp at h
        | node y => simp [nodeOp] at h; subst h; rfl
        | post _ _ _ _ => rfl
        | _ => simp [nodeOp] at h
      · rintro m ω ok rfl
        refine ⟨op, by simp, ?_⟩
        cases op with
        | call o e m' =>
          cases o <;> simp [nodeOp] at h
          obtain ⟨rfl, hf, _⟩ := h
          simp [handsToNode, ← hf]
        | newDevice u₁ u₂ ω c =>
          simp only [nodeOp] at h
          split at h <;> simp at h
        | send k r m' free ok' =>
          simp only [nodeOp] at h
          split at h <;> simp at h
        | node y => simp [nodeOp] at h; subst h; simp [handsToNode]
        | _ => simp [nodeOp] at h
    · obtain ⟨h1, h2⟩ := ih h
      exact ⟨fun to m ok hx => (h1 to m ok hx).elim fun op ho => ⟨op, by simp [ho.1], ho.2⟩,
        fun m ω ok hx => (h2 m ω ok hx).elim fun op ho => ⟨op, by simp [ho.1], ho.2⟩⟩

/-- C91, posted requests: if a controller posts a request, then whatever any number of controllers, devices and observers
do on the node, the first response with its transaction ID is delivered to its receiver (partial: automatic transaction
ID; nobody on this node posts another request or transmits under a new automatic ID in between; service other than
0x5E). -/
theorem C91_post_partial (b : Build) (db : Database) (s s₁ s₂ s₃ : MultiHost S) (k : Nat) (r : RemoteNode) (req : Message)
    (ok : Nat → Bool) (hreq : req.tid = 0) (ch : Nat) (tid : UInt16)
    (hch : ch = ((s.host k).postMessage ok r req).1) (htid : tid = ((s.host k).postMessage ok r req).2.1.tid)
    (o₀ : List Out) (hpost : s.step b db (.post k r req ok) = .ok (s₁, o₀))
    (mid : List (SharedOp S)) (o₁ outs : List Out) (h₁ : s₁.run b db mid = .ok (s₂, o₁))
    (hno : ∀ op ∈ mid, isPost op = false) (hauto : autoTids o₁ = [])
    (hresp : ∀ op ∈ mid, ∀ m, handsToNode op = some m → isRequestByte m.esvByte = true ∨ m.tid ≠ tid)
    (e : CallEnv) (he : e.nodeFree = true) (msg : Message) (hm : isRequestByte msg.esvByte = false) (ht : msg.tid = tid)
    (hf : msg.isFormat1 = true) (hs : SizesOk msg) (h5 : msg.esvByte ≠ 0x5E)
    (h : s₂.step b db (.call .node e msg) = .ok (s₃, outs)) :
    ∃ m, deliveries outs = [(ch, m)] ∧ m.tid = msg.tid ∧ m.seoj = msg.seoj ∧ m.deoj = msg.deoj ∧
      m.esvByte = msg.esvByte ∧ frameOf m = frameOf msg := by
  subst hch htid
  have hn₁ : s₁.node = (s.node.postMessage ok ⟨r.addr.ip, port⟩ (req.setSeoj nodeProfileCode)).2.2.1 := by
    simp only [MultiHost.step, Res.ok.injEq, Prod.mk.injEq] at hpost
    rw [← hpost.1]; rfl
  have hrun := C91_node b db mid s₁ s₂ o₁ h₁
  rw [hn₁] at hrun
  have hobs : s₂.node.observe b e.ω e.ok msg = .ok (s₃.node, outs) := by
    obtain ⟨x, hx, h⟩ := Res.bind_eq_ok.mp h
    simp only [Res.pure_eq, Res.ok.injEq, Prod.mk.injEq] at h
    rw [← h.1, ← h.2]
    rw [he] at hx
    exact hx
  exact C40_delivered_partial b s.node s₂.node s₃.node ⟨r.addr.ip, port⟩ (req.setSeoj nodeProfileCode) ok e.ok hreq
    _ o₁ outs hrun
    (fun op hop to m ok' hx => by
      obtain ⟨y, hy, hp⟩ := (nodeOps_mem hop).1 to m ok' hx
      rw [hno y hy] at hp
      cases hp)
    hauto
    (fun m ω ok' hx => by
      obtain ⟨y, hy, hp⟩ := (nodeOps_mem hx).2 m ω ok' rfl
      exact hresp y hy m hp)
    msg e.ω hm ht hf hs h5 hobs

/-- C91 is false for posted requests: all controllers of a node share one place for the awaited response. Once another
controller has posted a request, the receiver of the first controller never gets a message, whatever happens. -/
theorem C91_posts_fails (b : Build) (db : Database) (s s₁ s₂ s₃ s₄ : MultiHost S) (i j : Nat) (r r' : RemoteNode)
    (req req' : Message) (ok ok' : Nat → Bool) (o₀ o₁ o₂ o₃ : List Out) (mid rest : List (SharedOp S))
    (hpost : s.step b db (.post i r req ok) = .ok (s₁, o₀)) (hmid : s₁.run b db mid = .ok (s₂, o₁))
    (hpost' : s₂.step b db (.post j r' req' ok') = .ok (s₃, o₂)) (hrest : s₃.run b db rest = .ok (s₄, o₃)) :
    ∀ m, (((s.host i).postMessage ok r req).1, m) ∉ deliveries o₃ := by
  have hn₁ : s₁.node = (s.node.postMessage ok ⟨r.addr.ip, port⟩ (req.setSeoj nodeProfileCode)).2.2.1 := by
    simp only [MultiHost.step, Res.ok.injEq, Prod.mk.injEq] at hpost
    rw [← hpost.1]; rfl
  have hn₃ : s₃.node = (s₂.node.postMessage ok' ⟨r'.addr.ip, port⟩ (req'.setSeoj nodeProfileCode)).2.2.1 := by
    simp only [MultiHost.step, Res.ok.injEq, Prod.mk.injEq] at hpost'
    rw [← hpost'.1]; rfl
  have hr₁ := C91_node b db mid s₁ s₂ o₁ hmid
  have hr₂ := C91_node b db rest s₃ s₄ o₃ hrest
  rw [hn₁] at hr₁
  rw [hn₃] at hr₂
  exact C41_superseded b s.node s₂.node s₄.node ⟨r.addr.ip, port⟩ ⟨r'.addr.ip, port⟩ (req.setSeoj nodeProfileCode)
    (req'.setSeoj nodeProfileCode) ok ok' _ _ o₁ o₃ hr₁ hr₂

/-! ## Panics -/

/-- C91 (and C57): with any number of controllers, devices and observers, no history of calls and received messages
without 0x5E messages makes anything panic (partial for the same reasons as C57). -/
theorem C91_no_panic_partial (b : Build) (ω₀ : HashOrder) (db : Database) (hdb : standardDb b ω₀ = .ok db)
    (s : MultiHost S) (hs : Sound b s.node) (ops : List (SharedOp S)) (hops : ∀ op ∈ ops, SafeSharedOp b op) :
    ∃ s' outs, s.run b db ops = .ok (s', outs) ∧ Sound b s'.node := by
  induction ops generalizing s with
  | nil => exact ⟨s, [], rfl, hs⟩
  | cons op ops ih =>
    have hop := hops op (by simp)
    have same : ∀ m : Node S, m.objects = s.node.objects → m.transport = s.node.transport → Sound b m := by
      intro m h1 h2
      exact ⟨by rw [h1]; exact hs.objects, by rw [h2]; exact hs.threads⟩
    obtain ⟨s₁, o₁, hstep, h1⟩ : ∃ s₁ o₁, s.step b db op = .ok (s₁, o₁) ∧ Sound b s₁.node := by
      cases op with
      | newController => exact ⟨_, _, rfl, same _ rfl rfl⟩
      | newObserver => exact ⟨_, _, rfl, same _ rfl rfl⟩
      | newDevice u₁ u₂ ω code =>
        obtain ⟨o, ho, _, _, _, hc⟩ := deviceObject_spec hdb hop.1.1 hop.1.2 ω code
        obtain ⟨n', outs, h1, h2⟩ := step_ok (b := b) (op := .addObject o)
          (same ((s.node.addObserver .node).addObserver (.user s.watchers.length)) rfl rfl) (Or.inr hc)
        obtain ⟨n'', h3, h4⟩ := Res.bind_eq_ok.mp h1
        simp only [Res.pure_eq, Res.ok.injEq, Prod.mk.injEq] at h4
        obtain ⟨rfl, rfl⟩ := h4
        refine ⟨⟨n'', s.watchers ++ [.device]⟩, [], ?_, h2⟩
        simp only [MultiHost.step, MultiHost.newDevice, ho, Res.bind_ok, h3, Res.pure_eq]
      | call o e msg =>
        cases o with
        | node =>
          obtain ⟨n', outs, h1, h2⟩ := observeTry_ok (ω := e.ω) (ok := e.ok) (free := e.nodeFree) hs hop.2
          exact ⟨{ s with node := n' }, outs, by simp only [MultiHost.step, MultiHost.invoke, h1, Res.bind_ok, Res.pure_eq], h2⟩
        | user k =>
          cases hw : s.watchers[k]? with
          | none => exact ⟨s, [], by simp only [MultiHost.step, MultiHost.invoke, hw], hs⟩
          | some w =>
            cases w with
            | controller l =>
              obtain ⟨r, h1⟩ := observeController_ok hdb e hop.1 l msg
              exact ⟨{ s with watchers := s.watchers.set k (.controller r) }, [],
                by simp only [MultiHost.step, MultiHost.invoke, hw, h1, Res.bind_ok, Res.pure_eq], hs⟩
            | app ms => exact ⟨{ s with watchers := s.watchers.set k (.app (ms ++ [msg])) }, [],
                by simp only [MultiHost.step, MultiHost.invoke, hw], hs⟩
            | device => exact ⟨s, [], by simp only [MultiHost.step, MultiHost.invoke, hw], hs⟩
        | controller => exact ⟨s, [], rfl, hs⟩
        | device => exact ⟨s, [], rfl, hs⟩
      | node op =>
        obtain ⟨n', outs, h1, h2⟩ := step_ok hs hop.2
        exact ⟨{ s with node := n' }, outs, by simp only [MultiHost.step, h1, Res.bind_ok, Res.pure_eq], h2⟩
      | search k code ok => exact ⟨_, _, rfl, same _ (Node.updateTid_objects _ _) (Node.updateTid_transport _ _)⟩
      | send k r msg free ok =>
        refine ⟨_, _, rfl, ?_⟩
        unfold Host.sendMessage
        split
        · exact hs
        · exact same _ (Node.updateTid_objects _ _) (Node.updateTid_transport _ _)
      | post k r msg ok =>
        exact ⟨_, _, rfl, same _ (Node.updateTid_objects s.node (msg.setSeoj nodeProfileCode))
          (Node.updateTid_transport s.node (msg.setSeoj nodeProfileCode))⟩
      | start k menv uenv ok =>
        obtain ⟨r, n', outs, h1, h2⟩ := start_ok (uenv := uenv) (ok := ok) hop.2 hs
        have h1' : (s.host k).node.start menv uenv ok = .ok (r, n', outs) := h1
        refine ⟨{ s with node := n' }, outs, ?_, h2⟩
        simp only [MultiHost.step, Host.start, h1', Res.bind_ok]
        cases r <;> rfl
      | stop k =>
        obtain ⟨n', h1, h2⟩ := stop_ok hs
        have h1' : (s.host k).node.stop = .ok (true, n') := h1
        refine ⟨{ s with node := n' }, [], ?_, h2⟩
        simp only [MultiHost.step, Host.stop, h1', Res.bind_ok]
        rfl
      | drop k =>
        obtain ⟨n', h1, h2⟩ := stop_ok hs
        have h1' : (s.host k).node.stop = .ok (true, n') := h1
        refine ⟨{ s with node := n' }, [], ?_, h2⟩
        simp only [MultiHost.step, Host.stop, h1', Res.bind_ok]
        rfl
    obtain ⟨s', outs, hrun, hs'⟩ := ih s₁ h1 (fun op hm => hops op (by simp [hm]))
    exact ⟨s', o₁ ++ outs, by simp only [MultiHost.run, hstep, hrun, Res.bind_ok, Res.pure_eq], hs'⟩

/-! ## Examples -/

/-- Two controllers, a device and an observer. -/
def exMakes : List (SharedOp S) :=
  [.newController, .newDevice (List.replicate 16 1) (List.replicate 16 2) .ascending 0x029001, .newObserver, .newController]

/-- Non-vacuity of C91_served, C91_replies_fails, C91_lists, C91_node and C91_no_panic_partial: on every new node they
can be made and started on one interface, and each of the two servers then serves any received message that is no 0x5E. -/
example (b : Build) (ω₀ : HashOrder) (db : Database) (hdb : standardDb b ω₀ = .ok db)
    (uuid₁ uuid₂ : List UInt8) (hu₁ : uuid₁.length = 16) (hu₂ : uuid₂.length = 16) (ω : HashOrder) (app : S) :
    ∃ n₀ s₁ s₂ o₁ o₂, Node.new b db uuid₁ uuid₂ ω app = .ok n₀ ∧
      (∀ op ∈ exMakes (S := S), isMaking op = true ∧ SharedUuids op) ∧ (exMakes (S := S)).countP isOwner = 3 ∧
      (⟨n₀, []⟩ : MultiHost S).run b db exMakes = .ok (s₁, o₁) ∧
      s₁.step b db (.start 0 [exIf] [exIf] allOk) = .ok (s₂, o₂) ∧ s₂.node.isRunning = true ∧
      (servers s₂.node).length = 2 ∧
      ∀ (obs : List ObserverRef) (ms : List Message), (∀ m ∈ ms, SafeMessage m) →
        ∃ s₃ outs, s₂.serve b db obs (fun _ _ => exCall true) ms = .ok (s₃, outs) := by
  obtain ⟨n₀, h1, hinv, _, _, _, htr, _, _, _, np, ho, _⟩ := newNode_inv hdb hu₁ hu₂ ω app
  have hm : ∀ op ∈ exMakes (S := S), isMaking op = true ∧ SharedUuids op := by
    intro op hop
    simp only [exMakes, List.mem_cons, List.not_mem_nil, or_false] at hop
    rcases hop with rfl | rfl | rfl | rfl <;> exact ⟨rfl, by simp [SharedUuids]⟩
  have hsound : Sound b n₀ := by
    obtain ⟨np', ds, ho', _, hself, _⟩ := hinv.shape
    rw [ho] at ho'
    simp only [List.cons.injEq] at ho'
    obtain ⟨rfl, rfl⟩ := ho'
    refine ⟨?_, ?_⟩
    · intro o hmem
      rw [ho] at hmem
      rw [List.mem_singleton.mp hmem]
      exact Or.inr hself.1
    · rw [htr]; intro s hs; simp [Manager.new] at hs
  obtain ⟨s₁, o₁, hmake, hs₁⟩ := C91_no_panic_partial b ω₀ db hdb ⟨n₀, []⟩ hsound exMakes (by
    intro op hop
    refine ⟨(hm op hop).2, ?_⟩
    simp only [exMakes, List.mem_cons, List.not_mem_nil, or_false] at hop
    rcases hop with rfl | rfl | rfl | rfl <;> trivial)
  obtain ⟨_, p2, _⟩ := making_run hdb (fun op h => (hm op h).1) (fun op h => (hm op h).2) (s := ⟨n₀, []⟩) hinv hmake
  have h4 : IsV4 exIf.addr := ⟨_, rfl⟩
  obtain ⟨s₂, o₂, hst, hs₂⟩ := C91_no_panic_partial b ω₀ db hdb s₁ hs₁ [.start 0 [exIf] [exIf] allOk] (by
    intro op hop
    rw [List.mem_singleton.mp hop]
    exact ⟨trivial, by simp [h4]⟩)
  have hstep : s₁.step b db (.start 0 [exIf] [exIf] allOk) = .ok (s₂, o₂) := by
    obtain ⟨r, hr, h⟩ := Res.bind_eq_ok.mp hst
    simp only [MultiHost.run, Res.bind_ok, Res.pure_eq, Res.ok.injEq, Prod.mk.injEq, List.append_nil] at h
    rw [hr, ← h.1, ← h.2]
  have htrans : s₂.node.transport = s₁.node.observers.foldl Manager.addObserver
      ⟨[Server.started exIf.addr], [Server.started exIf.addr]⟩ := by
    have hns := (shared_step hstep).1
    have hns : s₁.node.step b (.start [exIf] [exIf] allOk) = .ok (s₂.node, o₂) := by
      rw [← nodeRun_one]; exact hns
    obtain ⟨r, hr, h⟩ := Res.bind_eq_ok.mp hns
    simp only [Res.pure_eq, Res.ok.injEq, Prod.mk.injEq] at h
    have ht : Node.startTransport [exIf] [exIf] s₁.node.transport =
        .ok (true, ⟨[Server.started exIf.addr], [Server.started exIf.addr]⟩) := by
      rw [p2]
      show Node.startTransport [exIf] [exIf] n₀.transport = _
      rw [htr]; rfl
    obtain ⟨up, m, hm', hcase⟩ := start_result (n := s₁.node) (r := r.1) (n' := r.2.1) (outs := r.2.2) hr
    rw [ht] at hm'
    simp only [Res.ok.injEq, Prod.mk.injEq] at hm'
    obtain ⟨rfl, rfl⟩ := hm'
    rcases hcase with ⟨hx, _⟩ | ⟨_, n₁, hn₁, _, hn, _⟩
    · simp at hx
    · rw [← h.1, hn, (announce_frame allOk n₁).1, hn₁]
  refine ⟨n₀, s₁, s₂, o₁, o₂, h1, hm, rfl, hmake, hstep, ?_, ?_, ?_⟩
  · unfold Node.isRunning
    rw [htrans, addObservers_eq]
    rfl
  · unfold servers
    rw [htrans, addObservers_eq]
    rfl
  · intro obs ms hms
    have key : ∀ (ms : List Message) (s : MultiHost S), (∀ m ∈ ms, SafeMessage m) → Sound b s.node →
        ∃ s₃ outs, s.serve b db obs (fun _ _ => exCall true) ms = .ok (s₃, outs) := by
      intro ms s hms hs
      rw [serve_run]
      obtain ⟨s₃, outs, h, _⟩ := C91_no_panic_partial b ω₀ db hdb s hs (serveCalls obs (fun _ _ => exCall true) ms) (by
        clear hs
        induction ms with
        | nil => intro op hop; cases hop
        | cons m ms ih =>
          intro op hop
          rcases List.mem_append.mp hop with hop | hop
          · obtain ⟨o, i, rfl⟩ := notifyCalls_mem hop
            exact ⟨fun _ => rfl, hms m (by simp)⟩
          · exact ih (fun x hx => hms x (by simp [hx])) op hop)
      exact ⟨s₃, outs, h⟩
    exact key ms s₂ hms hs₂

/-- What the specification says about three answers from two nodes, as in the example of C47. -/
example : knownNodes ([exAnswer ⟨.v4 1, 3610⟩ [1, 2, 0x90, 1], exAnswer ⟨.v4 2, 3610⟩ [2, 2, 0x90, 1, 2, 0x88, 3],
      exRequest .ReadRequest 9, exAnswer ⟨.v4 1, 3610⟩ [1, 2, 0x90, 5]].filter (fun m => IsProfileMessage m)) =
    [(⟨.v4 2, 3610⟩, [0x029001, 0x028803, 0x0EF001]), (⟨.v4 1, 3610⟩, [0x029005, 0x0EF001])] := by decide +kernel

/-- Two controllers on a node that is running. -/
def exTwo (n : Node Unit) : MultiHost Unit := (⟨n, []⟩ : MultiHost Unit).newController.newController

/-- Non-vacuity of C91_post_partial: the first controller posts a read request, the second one sends a message with a
transaction ID of its own, a third controller is made, a request of somebody else is received; then the response arrives
and is delivered. -/
example (b : Build) (db : Database) : ∃ n, exNode [] = .ok n ∧
    let s := exTwo n
    let r : RemoteNode := ⟨⟨.v4 0xC0A80007, 50000⟩, []⟩
    let mid : List (SharedOp Unit) := [.send 1 r (exRequest .ReadRequest 77) true allOk, .newController,
      .call .node (exCall true) (exRequest .ReadRequest 9)]
    let resp := ((((Message.new.setTid 6).setSeoj 0x029001).setDeoj 0x0EF001).setEsv .ReadResponse).setFrom r.addr
    ((s.host 0).postMessage allOk r (exRequest .ReadRequest 0)).2.1.tid = 6 ∧
    ((s.host 0).postMessage allOk r (exRequest .ReadRequest 0)).1 = 0 ∧
    (∀ op ∈ mid, isPost op = false) ∧ isRequestByte resp.esvByte = false ∧ resp.isFormat1 = true ∧
    ∃ s₁ o₀ s₂ o₁ s₃ outs, s.step b db (.post 0 r (exRequest .ReadRequest 0) allOk) = .ok (s₁, o₀) ∧
      s₁.run b db mid = .ok (s₂, o₁) ∧ autoTids o₁ = [] ∧
      s₂.step b db (.call .node (exCall true) resp) = .ok (s₃, outs) ∧ (deliveries outs).map (fun x => x.1) = [0] := by
  refine ⟨_, rfl, rfl, rfl, by simp [isPost], rfl, rfl, _, _, _, _, _, _, rfl, rfl, ?_, rfl, ?_⟩ <;> decide +kernel

end Uecho
