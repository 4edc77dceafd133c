import Verif.Model.Memory
/-!
# Ownership: C66
-/
namespace Uecho.Memory

/-- Names at or above `next` are unused. -/
def Fresh (h : Heap) : Prop := ∀ i, h.next ≤ i → h.cells i = none

/-- Cell `j` refers to `i` and never stops doing so while it lives. -/
def Lasting (h : Heap) (j i : Nat) : Prop :=
  h.cells j = some (.plain i) ∨ ∃ hs os ss r, h.cells j = some (.node hs os ss r) ∧ i ∈ hs ++ os

/-- A set of living cells that keep each other alive. -/
def Knot (h : Heap) (K : Nat → Prop) : Prop := ∀ i, K i → (h.cells i).isSome ∧ ∃ j, K j ∧ Lasting h j i

theorem set_cells (h : Heap) (i : Nat) (c : Cell) (j : Nat) :
    (h.set i c).cells j = if j = i then some c else h.cells j := rfl

theorem set_next (h : Heap) (i : Nat) (c : Cell) : (h.set i c).next = h.next := rfl

theorem Lasting.mem {h : Heap} {j i : Nat} (hl : Lasting h j i) : ∃ c, h.cells j = some c ∧ i ∈ c.refs := by
  rcases hl with hl | ⟨hs, os, ss, r, hl, hm⟩
  · exact ⟨_, hl, by simp [Cell.refs]⟩
  · exact ⟨_, hl, List.mem_append_left _ hm⟩

theorem Lasting.alive {h : Heap} {j i : Nat} (hl : Lasting h j i) : ∃ c, h.cells j = some c := by
  obtain ⟨c, hc, _⟩ := hl.mem; exact ⟨c, hc⟩

/-- `h'` has all cells of `h`, possibly with more lasting references. -/
def Grows (h h' : Heap) : Prop :=
  (∀ i, (h.cells i).isSome → (h'.cells i).isSome) ∧ ∀ j i, Lasting h j i → Lasting h' j i

theorem Grows.refl (h : Heap) : Grows h h := ⟨fun _ h => h, fun _ _ h => h⟩
theorem Grows.trans {a b c : Heap} (h₁ : Grows a b) (h₂ : Grows b c) : Grows a c :=
  ⟨fun i h => h₂.1 i (h₁.1 i h), fun j i h => h₂.2 j i (h₁.2 j i h)⟩

theorem Knot.grow {h h' : Heap} {K : Nat → Prop} (hk : Knot h K) (hg : Grows h h') : Knot h' K := by
  intro i hi
  obtain ⟨h1, j, hj, hl⟩ := hk i hi
  exact ⟨hg.1 i h1, j, hj, hg.2 j i hl⟩

/-- Overwriting a node cell by one with at least its handlers and observers. -/
theorem grows_node {h : Heap} {n : Nat} {hs os ss : List Nat} {r : Bool} (hn : h.cells n = some (.node hs os ss r))
    {hs' os' : List Nat} (hsub : ∀ i ∈ hs ++ os, i ∈ hs' ++ os') (ss' : List Nat) (r' : Bool) :
    Grows h (h.set n (.node hs' os' ss' r')) := by
  constructor
  · intro i hi
    rw [set_cells]; split <;> simp_all
  · intro j i hl
    by_cases hj : j = n
    · subst hj
      rcases hl with hl | ⟨_, _, _, _, hl, hm⟩
      · rw [hn] at hl; simp at hl
      · rw [hn] at hl
        simp only [Option.some.injEq, Cell.node.injEq] at hl
        obtain ⟨rfl, rfl, _, _⟩ := hl
        exact Or.inr ⟨_, _, _, _, by rw [set_cells, if_pos rfl], hsub i hm⟩
    · unfold Lasting
      rw [set_cells, if_neg hj]; exact hl

theorem grows_fresh {h : Heap} {i : Nat} (hi : h.cells i = none) (c : Cell) : Grows h (h.set i c) := by
  constructor
  · intro j hj
    rw [set_cells]; split <;> simp_all
  · intro j k hl
    by_cases hj : j = i
    · subst hj
      obtain ⟨c, hc⟩ := hl.alive
      rw [hi] at hc; simp at hc
    · unfold Lasting
      rw [set_cells, if_neg hj]; exact hl

theorem addHandler_grows {h h' : Heap} {n c : Nat} (hs : h.addHandler n c = some h') : Grows h h' ∧ h'.next = h.next := by
  unfold Heap.addHandler at hs
  split at hs
  · rename_i hn
    simp only [Option.some.injEq] at hs
    subst hs
    refine ⟨grows_node hn (hs' := _ ++ [c]) ?_ _ _, rfl⟩
    intro i hi
    rcases List.mem_append.mp hi with hi | hi <;> simp [hi]
  · simp at hs

theorem addObserver_grows {h h' : Heap} {n c : Nat} (hs : h.addObserver n c = some h') :
    Grows h h' ∧ h'.next = h.next ∧ (∀ i, (h'.cells i).isSome → (h.cells i).isSome) ∧ Lasting h' n c := by
  unfold Heap.addObserver at hs
  split at hs
  · rename_i hn
    simp only [Option.some.injEq] at hs
    subst hs
    refine ⟨grows_node hn (os' := _ ++ [c]) ?_ _ _, rfl, ?_, ?_⟩
    · intro i hi
      rcases List.mem_append.mp hi with hi | hi <;> simp [hi]
    · intro i
      rw [set_cells]; split
      · rename_i e; subst e; simp [hn]
      · exact id
    · exact Or.inr ⟨_, _, _, _, by rw [set_cells, if_pos rfl], by simp⟩
  · simp at hs

theorem start_grows {h h' : Heap} {n : Nat} (hs : h.start n = some h') : Grows h h' ∧ h'.next = h.next := by
  unfold Heap.start at hs
  split at hs
  · rename_i hn
    simp only [Option.some.injEq] at hs
    subst hs
    exact ⟨grows_node hn (fun i hi => hi) _ _, rfl⟩
  · simp at hs

theorem stop_grows {h h' : Heap} {n : Nat} (hs : h.stop n = some h') : Grows h h' ∧ h'.next = h.next := by
  unfold Heap.stop at hs
  split at hs
  · rename_i hn
    simp only [Option.some.injEq] at hs
    subst hs
    exact ⟨grows_node hn (fun i hi => hi) _ _, rfl⟩
  · simp at hs

theorem Fresh.grows {h h' : Heap} (hf : Fresh h) (hn : h'.next = h.next)
    (hd : ∀ i, (h'.cells i).isSome → (h.cells i).isSome) : Fresh h' := by
  intro i hi
  rw [hn] at hi
  have := hf i hi
  cases hc : h'.cells i with
  | none => rfl
  | some c =>
    have := hd i (by simp [hc])
    simp_all

theorem alloc_cells (h : Heap) (c : Cell) (j : Nat) :
    (h.alloc c).2.cells j = if j = h.next then some c else h.cells j := rfl

theorem alloc_fresh {h : Heap} (hf : Fresh h) (c : Cell) : Fresh (h.alloc c).2 ∧ Grows h (h.alloc c).2 := by
  constructor
  · intro i hi
    have hi : h.next + 1 ≤ i := hi
    rw [alloc_cells, if_neg (by omega)]
    exact hf i (by omega)
  · have := grows_fresh (hf h.next (Nat.le_refl _)) c
    exact this

/-- What the creation of a controller or device adds. -/
theorem newOwner_spec {h h' : Heap} {n : Nat} (hf : Fresh h) (hs : h.newOwner n = some h') :
    Fresh h' ∧ Grows h h' ∧ h'.cells (h.next + 1) = some (.plain n) ∧ h'.held = (h.next + 1) :: h.held ∧
      Lasting h' (h.next + 2) (h.next + 1) ∧ Lasting h' n (h.next + 2) := by
  unfold Heap.newOwner at hs
  simp only [Option.bind_eq_bind, Option.bind_eq_some_iff] at hs
  obtain ⟨h₁, e1, h₂, e2, e3⟩ := hs
  simp only [Option.pure_def, Option.some.injEq] at e3
  obtain ⟨f0, g0⟩ := alloc_fresh hf (.plain n)
  obtain ⟨g1, n1, d1, l1⟩ := addObserver_grows e1
  have f1 := f0.grows n1 d1
  have hnext1 : h₁.next = h.next + 1 := n1
  obtain ⟨f2, g2⟩ := alloc_fresh f1 (.plain n)
  obtain ⟨f3, g3⟩ := alloc_fresh f2 (.plain (h₁.alloc (.plain n)).1)
  obtain ⟨g4, n4, d4, l4⟩ := addObserver_grows e2
  have f4 := f3.grows n4 d4
  have hheld : ∀ {a b : Heap} {x y : Nat}, a.addObserver x y = some b → b.held = a.held := by
    intro a b x y hab
    unfold Heap.addObserver at hab
    split at hab
    · simp only [Option.some.injEq] at hab; subst hab; rfl
    · simp at hab
  -- plain cells never change
  have hplain : ∀ {a b : Heap} {x y i m : Nat}, a.addObserver x y = some b → a.cells i = some (.plain m) →
      b.cells i = some (.plain m) := by
    intro a b x y i m hab hi
    unfold Heap.addObserver at hab
    split at hab
    · rename_i hn
      simp only [Option.some.injEq] at hab; subst hab
      rw [set_cells]
      split
      · rename_i e; subst e; rw [hi] at hn; simp at hn
      · exact hi
    · simp at hab
  have hk : ((h₁.alloc (.plain n)).2.alloc (.plain (h₁.alloc (.plain n)).1)).2.cells (h.next + 1) = some (.plain n) := by
    rw [alloc_cells, if_neg (by show h.next + 1 ≠ h₁.next + 1; omega), alloc_cells, if_pos (by omega)]
  have hw : ((h₁.alloc (.plain n)).2.alloc (.plain (h₁.alloc (.plain n)).1)).2.cells (h.next + 2) =
      some (.plain (h.next + 1)) := by
    rw [alloc_cells, if_pos (by show h.next + 2 = h₁.next + 1; omega)]
    show some (Cell.plain h₁.next) = _
    rw [hnext1]
  have hk4 := hplain e2 hk
  have hw4 := hplain e2 hw
  subst e3
  refine ⟨f4, ((g0.trans g1).trans (g2.trans g3)).trans g4, hk4, ?_, Or.inl hw4, ?_⟩
  · show (h₁.next) :: h₂.held = _
    rw [hheld e2]
    show h₁.next :: h₁.held = _
    rw [hheld e1, hnext1]; rfl
  · have e : ((h₁.alloc (.plain n)).2.alloc (.plain (h₁.alloc (.plain n)).1)).1 = h.next + 2 := by
      show h₁.next + 1 = _; omega
    rw [← e]; exact l4

/-- A step never breaks a knot. -/
theorem step_knot {h h' : Heap} {op : MemOp} (hf : Fresh h) (hs : h.step op = some h') :
    Fresh h' ∧ ∀ K, Knot h K → Knot h' K := by
  have same : ∀ {h₁ : Heap}, h₁.cells = h.cells → h₁.next = h.next → Fresh h₁ ∧ ∀ K, Knot h K → Knot h₁ K := by
    intro h₁ hc hn
    constructor
    · intro i hi; rw [hc]; exact hf i (by omega)
    · intro K hk i hi
      obtain ⟨h1, j, hj, hl⟩ := hk i hi
      unfold Lasting at *
      rw [hc]; exact ⟨h1, j, hj, hl⟩
  have bynode : ∀ {h₁ : Heap} {n : Nat} {c : Cell}, (h.cells n).isSome → Grows h (h.set n c) → h₁ = h.set n c →
      Fresh h₁ ∧ ∀ K, Knot h K → Knot h₁ K := by
    intro h₁ n c hn hg he
    subst he
    refine ⟨?_, fun K hk => hk.grow hg⟩
    intro i hi
    rw [set_cells]
    split
    · rename_i e; subst e
      rw [hf i hi] at hn; simp at hn
    · exact hf i hi
  cases op with
  | newNode =>
    simp only [Heap.step, Option.some.injEq] at hs
    subst hs
    unfold Heap.newNode
    have f0 : h.cells h.next = none := hf _ (Nat.le_refl _)
    have f1 : h.cells (h.next + 1) = none := hf _ (by omega)
    constructor
    · intro i hi
      have hi : h.next + 2 ≤ i := hi
      rw [set_cells, if_neg (by omega), set_cells, if_neg (by omega)]
      exact hf i (by omega)
    · intro K hk
      have g : Grows h ((h.set h.next (.node [h.next + 1] [] [] false)).set (h.next + 1) (.plain h.next)) :=
        (grows_fresh f0 _).trans (grows_fresh (by rw [set_cells, if_neg (by omega)]; exact f1) _)
      exact (hk.grow g)
  | clone i =>
    simp only [Heap.step] at hs
    split at hs
    · simp only [Option.some.injEq] at hs; subst hs; exact same rfl rfl
    · simp at hs
  | drop i =>
    simp only [Heap.step] at hs
    split at hs
    · simp only [Option.some.injEq] at hs; subst hs; exact same rfl rfl
    · simp at hs
  | newUser rs =>
    simp only [Heap.step] at hs
    split at hs
    · simp only [Option.some.injEq] at hs; subst hs
      obtain ⟨f, g⟩ := alloc_fresh hf (.user rs)
      exact ⟨f, fun K hk => hk.grow g⟩
    · simp at hs
  | setUser i rs =>
    simp only [Heap.step] at hs
    split at hs
    · rename_i old hi
      split at hs
      · simp only [Option.some.injEq] at hs
        refine bynode (n := i) (c := .user rs) (by simp [hi]) ?_ hs.symm
        constructor
        · intro j hj
          rw [set_cells]; split <;> simp_all
        · intro j k hl
          by_cases hj : j = i
          · subst hj
            rcases hl with hl | ⟨_, _, _, _, hl, _⟩ <;> rw [hi] at hl <;> simp at hl
          · unfold Lasting
            rw [set_cells, if_neg hj]; exact hl
      · simp at hs
    · simp at hs
  | addHandler n c =>
    simp only [Heap.step] at hs
    split at hs
    · have hg := (addHandler_grows hs).1
      unfold Heap.addHandler at hs
      split at hs
      · rename_i hn
        simp only [Option.some.injEq] at hs
        rw [← hs] at hg
        exact bynode (by simp [hn]) hg hs.symm
      · simp at hs
    · simp at hs
  | addObserver n c =>
    simp only [Heap.step] at hs
    split at hs
    · have hg := (addObserver_grows hs).1
      unfold Heap.addObserver at hs
      split at hs
      · rename_i hn
        simp only [Option.some.injEq] at hs
        rw [← hs] at hg
        exact bynode (by simp [hn]) hg hs.symm
      · simp at hs
    · simp at hs
  | newOwner n =>
    simp only [Heap.step] at hs
    split at hs
    · obtain ⟨f, g, _⟩ := newOwner_spec hf hs
      exact ⟨f, fun K hk => hk.grow g⟩
    · simp at hs
  | start n =>
    simp only [Heap.step] at hs
    have hg := (start_grows hs).1
    unfold Heap.start at hs
    split at hs
    · rename_i hn
      simp only [Option.some.injEq] at hs
      rw [← hs] at hg
      exact bynode (by simp [hn]) hg hs.symm
    · simp at hs
  | stop n =>
    simp only [Heap.step] at hs
    have hg := (stop_grows hs).1
    unfold Heap.stop at hs
    split at hs
    · rename_i hn
      simp only [Option.some.injEq] at hs
      rw [← hs] at hg
      exact bynode (by simp [hn]) hg hs.symm
    · simp at hs
  | dropOwner i =>
    simp only [Heap.step] at hs
    split at hs
    · simp only [Option.bind_eq_bind, Option.bind_eq_some_iff] at hs
      obtain ⟨n, _, h₁, e1, e2⟩ := hs
      simp only [Option.pure_def, Option.some.injEq] at e2
      have hg := (stop_grows e1).1
      unfold Heap.stop at e1
      split at e1
      · rename_i hn
        simp only [Option.some.injEq] at e1
        rw [← e1] at hg
        obtain ⟨f, k⟩ := bynode (by simp [hn]) hg e1.symm
        subst e2
        exact ⟨f, k⟩
      · simp at e1
    · simp at hs
  | destroy i =>
    simp only [Heap.step] at hs
    split at hs
    · rename_i hc
      simp only [Option.some.injEq] at hs
      subst hs
      constructor
      · intro j hj
        show (if j = i then none else h.cells j) = none
        split
        · rfl
        · exact hf j hj
      · intro K hk
        -- nothing in the knot is the destroyed cell
        have hne : ∀ j, K j → j ≠ i := by
          intro j hj e
          subst e
          obtain ⟨_, k, _, hl⟩ := hk j hj
          obtain ⟨c, hkc, hm⟩ := hl.mem
          exact hc.2.2 k c hkc hm
        intro j hj
        obtain ⟨h1, k, hk', hl⟩ := hk j hj
        refine ⟨?_, k, hk', ?_⟩
        · show ((if j = i then none else h.cells j)).isSome
          rw [if_neg (hne j hj)]; exact h1
        · unfold Lasting
          show ((if k = i then none else h.cells k) = _ ∨ ∃ hs os ss r, (if k = i then none else h.cells k) = _ ∧ _)
          rw [if_neg (hne k hk')]; exact hl
    · simp at hs

theorem run_knot {h h' : Heap} {ops : List MemOp} (hf : Fresh h) (hs : h.run ops = some h') :
    Fresh h' ∧ ∀ K, Knot h K → Knot h' K := by
  induction ops generalizing h with
  | nil => simp only [Heap.run, Option.some.injEq] at hs; subst hs; exact ⟨hf, fun _ h => h⟩
  | cons op ops ih =>
    simp only [Heap.run, Option.bind_eq_some_iff] at hs
    obtain ⟨h₁, e1, e2⟩ := hs
    obtain ⟨f, k⟩ := step_knot hf e1
    obtain ⟨f', k'⟩ := ih f e2
    exact ⟨f', fun K hk => k' K (k K hk)⟩

theorem fresh_empty : Fresh Heap.empty := fun _ _ => rfl

/-- A new node and its own handler are a knot. -/
theorem newNode_knot (h : Heap) : Knot h.newNode (fun i => i = h.next ∨ i = h.next + 1) := by
  have c0 : h.newNode.cells h.next = some (.node [h.next + 1] [] [] false) := by
    unfold Heap.newNode
    rw [set_cells, if_neg (by omega), set_cells, if_pos rfl]
  have c1 : h.newNode.cells (h.next + 1) = some (.plain h.next) := by
    unfold Heap.newNode
    rw [set_cells, if_pos rfl]
  rintro i (rfl | rfl)
  · exact ⟨by simp [c0], _, Or.inr rfl, Or.inl c1⟩
  · exact ⟨by simp [c1], _, Or.inl rfl, Or.inr ⟨_, _, _, _, c0, by simp⟩⟩

/-- What a step does to the running state of a node that is not stopped by it. -/
theorem step_node {h h' : Heap} {op : MemOp} (hf : Fresh h) (hs : h.step op = some h') {n : Nat} {a b c : List Nat}
    (hn : h.cells n = some (.node a b c true)) (halive : (h'.cells n).isSome)
    (h1 : op ≠ .stop n) (h2 : ∀ i, op ≠ .dropOwner i) : ∃ a b c, h'.cells n = some (.node a b c true) := by
  have hlt : n < h.next := by
    rcases Nat.lt_or_ge n h.next with h | hge
    · exact h
    · rw [hf n hge] at hn; simp at hn
  have put : ∀ {m : Nat} {x : Cell}, (m = n → ∃ a b c, x = .node a b c true) →
      ∃ a b c, (h.set m x).cells n = some (.node a b c true) := by
    intro m x hx
    rw [set_cells]
    split
    · rename_i e
      obtain ⟨a, b, c, rfl⟩ := hx e.symm
      exact ⟨a, b, c, rfl⟩
    · exact ⟨a, b, c, hn⟩
  cases op with
  | newNode =>
    simp only [Heap.step, Option.some.injEq] at hs; subst hs
    unfold Heap.newNode
    rw [set_cells, if_neg (by omega), set_cells, if_neg (by omega)]
    exact ⟨_, _, _, hn⟩
  | clone i =>
    simp only [Heap.step] at hs
    split at hs
    · simp only [Option.some.injEq] at hs; subst hs; exact ⟨_, _, _, hn⟩
    · simp at hs
  | drop i =>
    simp only [Heap.step] at hs
    split at hs
    · simp only [Option.some.injEq] at hs; subst hs; exact ⟨_, _, _, hn⟩
    · simp at hs
  | newUser rs =>
    simp only [Heap.step] at hs
    split at hs
    · simp only [Option.some.injEq] at hs; subst hs
      refine ⟨a, b, c, ?_⟩
      show (h.alloc (.user rs)).2.cells n = _
      rw [alloc_cells, if_neg (by omega)]; exact hn
    · simp at hs
  | setUser i rs =>
    simp only [Heap.step] at hs
    split at hs
    · rename_i old hi
      split at hs
      · simp only [Option.some.injEq] at hs; subst hs
        exact put (fun e => by subst e; rw [hn] at hi; simp at hi)
      · simp at hs
    · simp at hs
  | addHandler m k =>
    simp only [Heap.step] at hs
    split at hs
    · unfold Heap.addHandler at hs
      split at hs
      · rename_i hm
        simp only [Option.some.injEq] at hs; subst hs
        exact put (fun e => by subst e; rw [hn] at hm; simp at hm; exact ⟨_, _, _, by rw [← hm.2.2.2]⟩)
      · simp at hs
    · simp at hs
  | addObserver m k =>
    simp only [Heap.step] at hs
    split at hs
    · unfold Heap.addObserver at hs
      split at hs
      · rename_i hm
        simp only [Option.some.injEq] at hs; subst hs
        exact put (fun e => by subst e; rw [hn] at hm; simp at hm; exact ⟨_, _, _, by rw [← hm.2.2.2]⟩)
      · simp at hs
    · simp at hs
  | newOwner m =>
    simp only [Heap.step] at hs
    split at hs
    · unfold Heap.newOwner at hs
      simp only [Option.bind_eq_bind, Option.bind_eq_some_iff] at hs
      obtain ⟨h₁, e1, h₂, e2, e3⟩ := hs
      simp only [Option.pure_def, Option.some.injEq] at e3
      have obs : ∀ {x y : Heap} {p q : Nat}, x.addObserver p q = some y →
          (∃ a b c, x.cells n = some (.node a b c true)) → ∃ a b c, y.cells n = some (.node a b c true) := by
        intro x y p q hxy ⟨a, b, c, hx⟩
        unfold Heap.addObserver at hxy
        split at hxy
        · rename_i hp
          simp only [Option.some.injEq] at hxy; subst hxy
          rw [set_cells]
          split
          · rename_i e; subst e
            rw [hx] at hp; simp at hp
            exact ⟨_, _, _, by rw [← hp.2.2.2]⟩
          · exact ⟨a, b, c, hx⟩
        · simp at hxy
      have n1 : h₁.next = h.next + 1 := (addObserver_grows e1).2.1
      obtain ⟨a1, b1, c1, x1⟩ := obs e1 ⟨a, b, c, by rw [alloc_cells, if_neg (by omega)]; exact hn⟩
      obtain ⟨a2, b2, c2, x2⟩ := obs e2 ⟨a1, b1, c1, by
        rw [alloc_cells, if_neg (by show n ≠ h₁.next + 1; omega), alloc_cells, if_neg (by omega)]; exact x1⟩
      subst e3
      exact ⟨a2, b2, c2, x2⟩
    · simp at hs
  | start m =>
    simp only [Heap.step] at hs
    unfold Heap.start at hs
    split at hs
    · simp only [Option.some.injEq] at hs; subst hs
      exact put (fun _ => ⟨_, _, _, rfl⟩)
    · simp at hs
  | stop m =>
    simp only [Heap.step] at hs
    unfold Heap.stop at hs
    split at hs
    · simp only [Option.some.injEq] at hs; subst hs
      exact put (fun e => absurd (by rw [e]) h1)
    · simp at hs
  | dropOwner i => exact absurd rfl (h2 i)
  | destroy i =>
    simp only [Heap.step] at hs
    split at hs
    · simp only [Option.some.injEq] at hs; subst hs
      have halive : ((if n = i then none else h.cells n) : Option Cell).isSome := halive
      refine ⟨a, b, c, ?_⟩
      show (if n = i then none else h.cells n) = _
      split at halive
      · simp at halive
      · rename_i hne; rw [if_neg hne]; exact hn
    · simp at hs

/-! ## C66 -/

/-- C66 is false: a node created with `Node::new` is never destroyed, in whatever way references to it and
to everything else are cloned, handed over and dropped afterwards. -/
theorem C66_never_destroyed (before after : List MemOp) (h h₁ h₂ : Heap) (hb : Heap.empty.run before = some h)
    (hnew : h.step .newNode = some h₁) (hafter : h₁.run after = some h₂) :
    h.next ∈ h₁.held ∧ (h₂.cells h.next).isSome := by
  have hf := (run_knot fresh_empty hb).1
  have hf₁ := (step_knot hf hnew).1
  simp only [Heap.step, Option.some.injEq] at hnew
  subst hnew
  refine ⟨by simp [Heap.newNode, Heap.set], ?_⟩
  exact ((run_knot hf₁ hafter).2 _ (newNode_knot h) h.next (Or.inl rfl)).1

/-- C66 is false: a node that has been started keeps running, whatever is dropped, unless `stop` is called
on it or a `Controller` or `Device` is dropped. -/
theorem C66_keeps_running (before after : List MemOp) (h h₁ h₂ h₃ : Heap) (mid : List MemOp)
    (hb : Heap.empty.run before = some h) (hnew : h.step .newNode = some h₁) (hmid : h₁.run mid = some h₂)
    (hon : ∃ a b c, h₂.cells h.next = some (.node a b c true)) (hafter : h₂.run after = some h₃)
    (hns : ∀ op ∈ after, op ≠ .stop h.next) (hnd : ∀ op ∈ after, ∀ i, op ≠ .dropOwner i) :
    ∃ a b c, h₃.cells h.next = some (.node a b c true) := by
  have hf := (run_knot fresh_empty hb).1
  have hf₁ := (step_knot hf hnew).1
  obtain ⟨hf₂, hk₂⟩ := run_knot hf₁ hmid
  have hknot : Knot h₁ (fun i => i = h.next ∨ i = h.next + 1) := by
    simp only [Heap.step, Option.some.injEq] at hnew
    subst hnew
    exact newNode_knot h
  have hk := hk₂ _ hknot
  clear hmid hk₂ hknot hf₁ hb
  induction after generalizing h₂ with
  | nil => simp only [Heap.run, Option.some.injEq] at hafter; subst hafter; exact hon
  | cons op after ih =>
    simp only [Heap.run, Option.bind_eq_some_iff] at hafter
    obtain ⟨h', e1, e2⟩ := hafter
    obtain ⟨f, k⟩ := step_knot hf₂ e1
    have hk' := k _ hk
    obtain ⟨a, b, c, hn⟩ := hon
    exact ih h' (step_node hf₂ e1 hn (hk' _ (Or.inl rfl)).1 (hns op (by simp)) (hnd op (by simp))) e2
      (fun op hm => hns op (by simp [hm])) (fun op hm => hnd op (by simp [hm])) f hk'

/-- Handles are counted: cloning adds one, dropping removes exactly one, and nothing is destroyed while a handle
or a living cell refers to it. -/
theorem C66_counted (h h' : Heap) (i : Nat) :
    (h.step (.clone i) = some h' → i ∈ h.held ∧ h'.held.Perm (i :: h.held) ∧ h'.cells = h.cells) ∧
    (h.step (.drop i) = some h' → h.held.Perm (i :: h'.held) ∧ h'.cells = h.cells) ∧
    (h.step (.destroy i) = some h' → i ∉ h.held ∧
      (∀ j hs os ss r, h.cells j = some (.node hs os ss r) → i ∉ hs ∧ i ∉ os ∧ i ∉ ss) ∧
      (∀ j, h.cells j ≠ some (.plain i)) ∧ (∀ j rs, h.cells j = some (.user rs) → i ∉ rs) ∧ h'.held = h.held ∧
      ∀ j, j ≠ i → h'.cells j = h.cells j) := by
  refine ⟨?_, ?_, ?_⟩
  · intro hs
    simp only [Heap.step] at hs
    split at hs
    · rename_i hm
      simp only [Option.some.injEq] at hs; subst hs
      exact ⟨hm, List.Perm.refl _, rfl⟩
    · cases hs
  · intro hs
    simp only [Heap.step] at hs
    split at hs
    · rename_i hm
      simp only [Option.some.injEq] at hs; subst hs
      exact ⟨List.perm_cons_erase hm, rfl⟩
    · cases hs
  · intro hs
    simp only [Heap.step] at hs
    split at hs
    · rename_i hm
      simp only [Option.some.injEq] at hs; subst hs
      refine ⟨hm.2.1, fun j hs os ss r hj => ?_, fun j hj => ?_, fun j rs hj => ?_, rfl, fun j hj => by simp [hj]⟩
      · have := hm.2.2 j _ hj
        simp only [Cell.refs, List.mem_append, not_or] at this
        exact ⟨this.1.1, this.1.2, this.2⟩
      · have := hm.2.2 j _ hj
        simp [Cell.refs] at this
      · exact hm.2.2 j _ hj
    · cases hs

/-- What holds of C66: dropping a `Controller` or a `Device` stops its node. (That it does so even if other
handles to the node exist is C59.) The node's memory is not released: `C66_never_destroyed`. -/
theorem C66_owner_stops_partial (h h' : Heap) (i : Nat) (hs : h.step (.dropOwner i) = some h') :
    ∃ n a b, h.cells i = some (.plain n) ∧ h'.cells n = some (.node a b [] false) ∧ h'.held = h.held.erase i := by
  simp only [Heap.step] at hs
  split at hs
  · simp only [Option.bind_eq_bind, Option.bind_eq_some_iff] at hs
    obtain ⟨n, e0, h₁, e1, e2⟩ := hs
    simp only [Option.pure_def, Option.some.injEq] at e2
    unfold Heap.nodeOf at e0
    split at e0
    · rename_i m hm
      simp only [Option.some.injEq] at e0
      subst e0
      unfold Heap.stop at e1
      split at e1
      · simp only [Option.some.injEq] at e1
        subst e1 e2
        exact ⟨m, _, _, hm, if_pos rfl, rfl⟩
      · simp at e1
    · simp at e0
  · simp at hs

/-- C66 is false for controllers and devices too: the `ControllerNode` or `DeviceNode` behind a `Controller`
or `Device` (with everything the controller has discovered) is never destroyed, even after the `Controller`
or `Device` has been dropped. -/
theorem C66_owner_never_destroyed (before mid after : List MemOp) (h h₁ h₂ h₃ h₄ : Heap)
    (hb : Heap.empty.run before = some h) (hnew : h.step .newNode = some h₁) (hmid : h₁.run mid = some h₂)
    (hown : h₂.step (.newOwner h.next) = some h₃) (hafter : h₃.run after = some h₄) :
    (h₂.next + 1) ∈ h₃.held ∧ (h₄.cells (h₂.next + 1)).isSome := by
  have hf := (run_knot fresh_empty hb).1
  have hf₁ := (step_knot hf hnew).1
  obtain ⟨hf₂, hk₂⟩ := run_knot hf₁ hmid
  have hknot : Knot h₁ (fun i => i = h.next ∨ i = h.next + 1) := by
    simp only [Heap.step, Option.some.injEq] at hnew
    subst hnew
    exact newNode_knot h
  have hk := hk₂ _ hknot
  obtain ⟨hf₃, hk₃⟩ := step_knot hf₂ hown
  simp only [Heap.step] at hown
  split at hown
  · obtain ⟨_, _, hc, hheld, l1, l2⟩ := newOwner_spec hf₂ hown
    refine ⟨by rw [hheld]; simp, ?_⟩
    have hk₃' := hk₃ _ hk
    have hbig : Knot h₃ (fun i => (i = h.next ∨ i = h.next + 1) ∨ i = h₂.next + 1 ∨ i = h₂.next + 2) := by
      rintro i (hi | rfl | rfl)
      · obtain ⟨x1, j, hj, x2⟩ := hk₃' i hi
        exact ⟨x1, j, Or.inl hj, x2⟩
      · exact ⟨by simp [hc], _, Or.inr (Or.inr rfl), l1⟩
      · obtain ⟨c, hc'⟩ := l1.alive
        exact ⟨by simp [hc'], _, Or.inl (Or.inl rfl), l2⟩
    exact ((run_knot hf₃ hafter).2 _ hbig _ (Or.inr (Or.inl rfl))).1
  · simp at hown

/-- Cells the application drops are destroyed: the model does not simply keep everything. -/
example : ∃ h h', Heap.empty.run [.newUser [], .drop 0] = some h ∧ (h.cells 0).isSome ∧
    h.step (.destroy 0) = some h' ∧ h'.cells 0 = none := by
  refine ⟨⟨fun j => if j = 0 then some (.user []) else none, 1, []⟩, ⟨fun j => if j = 0 then none else
    (if j = 0 then some (.user []) else none), 1, []⟩, ?_, rfl, ?_, rfl⟩
  · simp [Heap.run, Heap.step, Heap.empty, Heap.alloc, Heap.set]
    rfl
  · simp only [Heap.step]
    rw [if_pos]
    refine ⟨rfl, by simp, ?_⟩
    intro j c hc
    dsimp only at hc
    split at hc
    · simp only [Option.some.injEq] at hc; subst hc; simp [Cell.refs]
    · simp at hc

/-- A node is created, started, and the only reference to it is dropped; it runs on (`C66_keeps_running`
applies), and cannot be destroyed. -/
example : ∃ h, Heap.empty.run [.newNode, .start 0, .drop 0] = some h ∧ h.held = [] ∧
    h.cells 0 = some (.node [1] [] [] true) ∧ h.step (.destroy 0) = none := by
  refine ⟨⟨fun j => if j = 0 then some (.node [1] [] [] true) else if j = 1 then some (.plain 0) else
    if j = 0 then some (.node [1] [] [] false) else none, 2, []⟩, ?_, rfl, rfl, ?_⟩
  · simp [Heap.run, Heap.step, Heap.empty, Heap.newNode, Heap.start, Heap.set]
  · simp only [Heap.step]
    rw [if_neg]
    rintro ⟨_, _, hu⟩
    exact hu 1 (.plain 0) rfl (by simp [Cell.refs])

/-- The application registers a value of its own as a handler and as an observer and drops its reference; the value
stays, because the node refers to it. -/
example : ∃ h, Heap.empty.run [.newNode, .newUser [], .addHandler 0 2, .addObserver 0 2, .drop 2] = some h ∧ h.held = [0] ∧
    h.cells 0 = some (.node [1, 2] [2] [] false) ∧ h.cells 2 = some (.user []) ∧ h.step (.destroy 2) = none := by
  refine ⟨⟨fun j => if j = 0 then some (.node [1, 2] [2] [] false) else if j = 0 then some (.node [1, 2] [] [] false) else
    if j = 2 then some (.user []) else if j = 1 then some (.plain 0) else
    if j = 0 then some (.node [1] [] [] false) else none, 3, [0]⟩, ?_, rfl, rfl, rfl, ?_⟩
  · simp [Heap.run, Heap.step, Heap.empty, Heap.newNode, Heap.addHandler, Heap.addObserver, Heap.set, Heap.alloc]
  · simp only [Heap.step]
    rw [if_neg]
    rintro ⟨_, _, hu⟩
    exact hu 0 (.node [1, 2] [2] [] false) rfl (by simp [Cell.refs])

end Uecho.Memory
