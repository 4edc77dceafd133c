import Verif.Spec.Logging
/-!
# The logger: C92
-/
namespace Uecho
open Spec
open Logging
open Sock (Level)

/-- What holds in every state: one thread at most is in the closure, and what the states of the `Once` and of the crate mean. -/
structure LogState (w : World) : Prop where
  own : ∀ t, (w.pc t = .setLogger .uecho ∨ w.pc t = .writing .uecho ∨ w.pc t = .maxLevel ∨ w.pc t = .completing ∨
    w.pc t = .unwinding) ↔ w.once = .running t
  fac : ∀ t x, w.pc t = .writing x ↔ w.facade = .initializing t x
  installed : w.facade = .initialized .uecho →
    w.once = .complete ∨ ∃ t, w.once = .running t ∧ (w.pc t = .maxLevel ∨ w.pc t = .completing)
  max : ∀ t, (w.pc t = .completing ∨ w.once = .complete) → w.maxLevel = 5
  late : ∀ t, (w.pc t = .maxLevel ∨ w.pc t = .completing ∨ w.once = .complete) → w.facade = .initialized .uecho
  foreign : ∀ t, (w.pc t = .unwinding ∨ w.once = .poisoned) → w.facade = .initialized .other

theorem logState_start : LogState World.start := by
  constructor <;> simp [World.start]

theorem logState_step {t : Nat} {w w' : World} {e : Option Event} (h : LogState w) (h' : Step t w e w') : LogState w' := by
  obtain ⟨h1, h2, h3, h4, h5, h6⟩ := h
  have t1 : Level.trace.num = 5 := rfl
  cases h' with
  | refusedOwn w' h hf =>
    have h7 : w.once = .running t := (h1 t).mp (Or.inl h)
    cases w' with
    | uecho =>
      rcases h3 hf with g | ⟨u, g, g'⟩
      · rw [h7] at g; cases g
      · rw [h7] at g; cases g
        rw [h] at g'; simp at g'
    | other => constructor <;> simp only [World.set] <;> grind
  | _ => constructor <;> simp only [World.set] <;> grind

/-- What the events seen so far say about the state. -/
structure LogTrace (tr : List Event) (w : World) : Prop where
  returned : ∀ t, Event.ended t .init .returned ∈ tr → w.once = .complete
  panicked : ∀ t, Event.ended t .init .panicked ∈ tr → w.once = .poisoned
  other : w.facade = .initialized .other ↔ ∃ t, Event.ended t .install (.installed true) ∈ tr
  asked : ∀ t, (w.pc t = .setLogger .other ∨ w.pc t = .writing .other ∨ Event.ended t .install (.installed true) ∈ tr) →
    Event.called t .install ∈ tr
  written : ∀ t l x z, Event.ended t (.record l x) (.written (some z)) ∈ tr → w.facade = .initialized z

theorem logTrace_step {tr : List Event} {t : Nat} {w w' : World} {e : Option Event} (hs : LogState w) (h : LogTrace tr w)
    (h' : Step t w e w') : LogTrace (tr ++ e.toList) w' := by
  obtain ⟨h1, h2, h3, h4, h5, h6⟩ := hs
  obtain ⟨g1, g2, g3, g4, g5⟩ := h
  cases h' with
  | given which l x h hf =>
    cases which <;> simp only [writtenBy] <;> constructor <;>
      simp only [World.set, Option.toList, List.mem_append, List.mem_singleton] <;> grind
  | _ =>
    constructor <;> simp only [World.set, Option.toList, List.mem_append, List.mem_singleton, List.append_nil] <;> grind

/-- The call a thread is in. -/
def pcCall : Pc → Option Call
  | .idle => none
  | .setLogger .other => some .install
  | .writing .other => some .install
  | .compare l x => some (.record l x)
  | .give l x _ => some (.record l x)
  | _ => some .init

/-- Calls and places. -/
structure LogCalls (tr : List Event) (w : World) : Prop where
  open_ : ∀ t c, pcCall (w.pc t) = some c → ∃ pre mid, tr = pre ++ .called t c :: mid ∧ ∀ e ∈ mid, e.thread ≠ t
  place : ∀ t pre c mid, tr = pre ++ .called t c :: mid → (∀ e ∈ mid, e.thread ≠ t) →
    pcCall (w.pc t) = some c ∧ ∀ l x p, w.pc t = .give l x p → InitDone pre → p = true
  ends : ∀ t c o, Event.ended t c o ∈ tr → c = .init → o = .returned ∨ o = .panicked

theorem snoc_split {α : Type} {l pre mid : List α} {a e : α} (h : l ++ [e] = pre ++ a :: mid) :
    (mid = [] ∧ a = e ∧ pre = l) ∨ ∃ mid', mid = mid' ++ [e] ∧ l = pre ++ a :: mid' := by
  rcases List.eq_nil_or_concat mid with rfl | ⟨mid', b, rfl⟩
  · left
    have := List.append_inj' h rfl
    exact ⟨rfl, by simpa using this.2.symm, this.1.symm⟩
  · right
    have h' : l ++ [e] = (pre ++ a :: mid') ++ [b] := by simpa using h
    have := List.append_inj' h' rfl
    exact ⟨mid', by simpa using this.2.symm, this.1⟩

theorem pcCall_set (w : World) (t u : Nat) (p : Pc) :
    (w.set t p).pc u = if u = t then p else w.pc u := rfl

/-- A step that can be observed. -/
theorem calls_event {tr : List Event} {w w' : World} {t : Nat} {e : Event} (h : LogCalls tr w) (he : e.thread = t)
    (hp : ∀ u, u ≠ t → w'.pc u = w.pc u) (h' : (∃ c, e = .called t c ∧ pcCall (w'.pc t) = some c ∧
      ∀ l x p, w'.pc t ≠ .give l x p) ∨ ((∃ c o, e = .ended t c o ∧ (c = .init → o = .returned ∨ o = .panicked)) ∧
        w'.pc t = .idle)) : LogCalls (tr ++ [e]) w' := by
  refine ⟨?_, ?_, ?_⟩
  · intro u c hc
    by_cases hu : u = t
    · subst hu
      rcases h' with ⟨c', h1, h2, _⟩ | ⟨_, h2⟩
      · rw [h2] at hc; cases hc
        exact ⟨tr, [], by rw [h1], nofun⟩
      · rw [h2] at hc; simp [pcCall] at hc
    · rw [hp u hu] at hc
      obtain ⟨pre, mid, h1, h2⟩ := h.open_ u c hc
      refine ⟨pre, mid ++ [e], by rw [h1]; simp, ?_⟩
      intro x hx
      rcases List.mem_append.mp hx with hx | hx
      · exact h2 x hx
      · rw [List.mem_singleton.mp hx, he]; exact fun h => hu h.symm
  · intro u pre c mid htr hmid
    rcases snoc_split htr with ⟨rfl, h1, rfl⟩ | ⟨mid', rfl, h1⟩
    · subst h1
      have hu : t = u := by rw [← he]; rfl
      subst hu
      rcases h' with ⟨c', h1, h2, h3⟩ | ⟨⟨_, _, h1, _⟩, _⟩
      · cases h1; exact ⟨h2, fun l x p hg => absurd hg (h3 l x p)⟩
      · cases h1
    · have hu : u ≠ t := by
        have := hmid e (by simp)
        rw [he] at this; exact fun h => this h.symm
      rw [hp u hu]
      exact h.place u pre c mid' h1 (fun x hx => hmid x (by simp [hx]))
  · intro u c o hm hc
    rcases List.mem_append.mp hm with hm | hm
    · exact h.ends u c o hm hc
    · rcases h' with ⟨_, h1, _⟩ | ⟨⟨c', o', h1, h2⟩, _⟩
      · rw [h1] at hm; simp at hm
      · rw [h1] at hm; simp at hm
        obtain ⟨_, rfl, rfl⟩ := hm
        exact h2 hc

/-- A step that cannot be observed. -/
theorem calls_silent {tr : List Event} {w w' : World} {t : Nat} (h : LogCalls tr w)
    (hp : ∀ u, u ≠ t → w'.pc u = w.pc u) (hc : pcCall (w'.pc t) = pcCall (w.pc t))
    (hg : ∀ l x p, w'.pc t = .give l x p → InitDone tr → p = true) : LogCalls tr w' := by
  have hall : ∀ u, pcCall (w'.pc u) = pcCall (w.pc u) := fun u => by
    by_cases hu : u = t
    · rw [hu]; exact hc
    · rw [hp u hu]
  refine ⟨fun u c h1 => h.open_ u c (by rw [← hall u]; exact h1), ?_, h.ends⟩
  intro u pre c mid htr hmid
  rw [hall u]
  refine ⟨(h.place u pre c mid htr hmid).1, ?_⟩
  intro l x p hp' hd
  by_cases hu : u = t
  · rw [hu] at hp'
    obtain ⟨v, hv⟩ := hd
    exact hg l x p hp' ⟨v, by rw [htr]; simp [hv]⟩
  · rw [hp u hu] at hp'
    exact (h.place u pre c mid htr hmid).2 l x p hp' hd

theorem calls_step {tr : List Event} {t : Nat} {w w' : World} {e : Option Event} (hs : LogState w) (ht : LogTrace tr w)
    (h : LogCalls tr w) (h' : Step t w e w') : LogCalls (tr ++ e.toList) w' := by
  have hset : ∀ (v : World) (p : Pc), v.pc = w.pc → ∀ u, u ≠ t → (v.set t p).pc u = w.pc u := by
    intro v p hv u hu
    rw [pcCall_set, if_neg hu, hv]
  have hat : ∀ (v : World) (p : Pc), (v.set t p).pc t = p := by
    intro v p; rw [pcCall_set, if_pos rfl]
  cases h' with
  | callInit hp => exact calls_event (t := t) h rfl (hset _ _ rfl) (Or.inl ⟨_, rfl, by rw [hat]; rfl, fun l x p hx => by rw [hat] at hx; cases hx⟩)
  | callInstall hp => exact calls_event (t := t) h rfl (hset _ _ rfl) (Or.inl ⟨_, rfl, by rw [hat]; rfl, fun l x p hx => by rw [hat] at hx; cases hx⟩)
  | callRecord hp l x => exact calls_event (t := t) h rfl (hset _ _ rfl) (Or.inl ⟨_, rfl, by rw [hat]; rfl, fun l x p hx => by rw [hat] at hx; cases hx⟩)
  | onceDone hp ho => exact calls_event (t := t) h rfl (hset _ _ rfl) (Or.inr ⟨⟨_, _, rfl, fun _ => Or.inl rfl⟩, hat _ _⟩)
  | oncePoisoned hp ho => exact calls_event (t := t) h rfl (hset _ _ rfl) (Or.inr ⟨⟨_, _, rfl, fun _ => Or.inr rfl⟩, hat _ _⟩)
  | wroteOther hp => exact calls_event (t := t) h rfl (hset _ _ rfl) (Or.inr ⟨⟨_, _, rfl, nofun⟩, hat _ _⟩)
  | refusedOther w' hp hf => exact calls_event (t := t) h rfl (hset _ _ rfl) (Or.inr ⟨⟨_, _, rfl, nofun⟩, hat _ _⟩)
  | complete hp => exact calls_event (t := t) h rfl (hset _ _ rfl) (Or.inr ⟨⟨_, _, rfl, fun _ => Or.inl rfl⟩, hat _ _⟩)
  | poison hp => exact calls_event (t := t) h rfl (hset _ _ rfl) (Or.inr ⟨⟨_, _, rfl, fun _ => Or.inr rfl⟩, hat _ _⟩)
  | given which l x hp hf => exact calls_event (t := t) h rfl (hset _ _ rfl) (Or.inr ⟨⟨_, _, rfl, nofun⟩, hat _ _⟩)
  | dropped l x p hp hf => exact calls_event (t := t) h rfl (hset _ _ rfl) (Or.inr ⟨⟨_, _, rfl, nofun⟩, hat _ _⟩)
  | onceNew hp ho =>
    simp only [Option.toList, List.append_nil]
    exact calls_silent h (hset _ _ rfl) (by rw [hat, hp]; rfl) (fun l x p hx => by rw [hat] at hx; cases hx)
  | claim which hp hf =>
    simp only [Option.toList, List.append_nil]
    exact calls_silent h (hset _ _ rfl) (by rw [hat, hp]; cases which <;> rfl) (fun l x p hx => by rw [hat] at hx; cases hx)
  | wroteOwn hp =>
    simp only [Option.toList, List.append_nil]
    exact calls_silent h (hset _ _ rfl) (by rw [hat, hp]; rfl) (fun l x p hx => by rw [hat] at hx; cases hx)
  | refusedOwn w' hp hf =>
    simp only [Option.toList, List.append_nil]
    exact calls_silent h (hset _ _ rfl) (by rw [hat, hp]; rfl) (fun l x p hx => by rw [hat] at hx; cases hx)
  | raise hp =>
    simp only [Option.toList, List.append_nil]
    exact calls_silent h (hset _ _ rfl) (by rw [hat, hp]; rfl) (fun l x p hx => by rw [hat] at hx; cases hx)
  | compared l x hp =>
    simp only [Option.toList, List.append_nil]
    refine calls_silent h (hset _ _ rfl) (by rw [hat, hp]; rfl) ?_
    intro l' x' p hx hd
    rw [hat] at hx
    cases hx
    obtain ⟨u, hu⟩ := hd
    have := hs.max t (Or.inr (ht.returned u hu))
    rw [this]
    cases l <;> decide

theorem log_inv {tr : List Event} {w : World} (h : Runs tr w) : LogState w ∧ LogTrace tr w ∧ LogCalls tr w := by
  induction h with
  | start =>
    refine ⟨logState_start, ?_, ?_⟩
    · constructor <;> simp [World.start]
    · exact ⟨by simp [World.start, pcCall], by simp, by simp⟩
  | step h h' ih => exact ⟨logState_step ih.1 h', logTrace_step ih.1 ih.2.1 h', calls_step ih.1 ih.2.1 ih.2.2 h'⟩

/-- The moment of an event. -/
theorem runs_at {tr : List Event} {w : World} (h : Runs tr w) : ∀ pre e post, tr = pre ++ e :: post →
    ∃ w₁ t w₂, Runs pre w₁ ∧ Step t w₁ (some e) w₂ := by
  induction h with
  | start => intro pre e post h; simp at h
  | step h h' ih =>
    rename_i tr w w' t ev
    intro pre e post he
    cases ev with
    | none => simp only [Option.toList, List.append_nil] at he; exact ih pre e post he
    | some ev =>
      rcases snoc_split he with ⟨_, rfl, rfl⟩ | ⟨post', _, h2⟩
      · exact ⟨w, t, w', h, h'⟩
      · exact ih pre e post' h2

/-- C92: `Logger::init` may be called any number of times, by any threads at the same time. If the application does not
install a logger of its own, no call panics. Once one of the calls has returned, every record logged by any thread, of any
level, is written, by the logger of this library. -/
theorem C92_init (tr : List Event) (w : World) (h : Runs tr w) :
    (NoOther tr → ¬ InitPanicked tr) ∧
    ∀ pre t l x mid z post, tr = pre ++ .called t (.record l x) :: (mid ++ .ended t (.record l x) (.written z) :: post) →
      (∀ e ∈ mid, e.thread ≠ t) → InitDone pre → z = some .uecho := by
  obtain ⟨hs, ht, hc⟩ := log_inv h
  refine ⟨?_, ?_⟩
  · rintro hno ⟨t, hp⟩
    have h1 := hs.foreign t (Or.inr (ht.panicked t hp))
    obtain ⟨u, hu⟩ := ht.other.mp h1
    exact hno u (ht.asked u (Or.inr (Or.inr hu)))
  · intro pre t l x mid z post he hmid hd
    obtain ⟨w₁, t', w₂, hr, hst⟩ := runs_at h (pre ++ .called t (.record l x) :: mid)
      (.ended t (.record l x) (.written z)) post (by rw [he]; simp)
    obtain ⟨hs, ht, hc⟩ := log_inv hr
    obtain ⟨hp1, hp2⟩ := hc.place t pre _ mid rfl hmid
    have hfac : w₁.facade = .initialized .uecho := by
      obtain ⟨u, hu⟩ := hd
      exact hs.late t (Or.inr (Or.inr (ht.returned u (by simp [hu]))))
    cases hst with
    | given which l x hp hf =>
      rw [hfac] at hf
      cases hf
      have : enabled l = true := by cases l <;> rfl
      simp [writtenBy, this]
    | dropped l x p hp hf =>
      rcases hf with hf | hf
      · have := hp2 l x p hp hd
        rw [hf] at this; cases this
      · exact absurd hfac (hf _)

/-- C92: the logger of the library never replaces another one, nor the other way round: records are written by one
logger only; after the application has installed its own, no call of `Logger::init` returns; every call that ends panics. -/
theorem C92_exclusive (tr : List Event) (w : World) (h : Runs tr w) :
    (∀ t l x a u l' x' b, Event.ended t (.record l x) (.written (some a)) ∈ tr →
      Event.ended u (.record l' x') (.written (some b)) ∈ tr → a = b) ∧
    (OtherInstalled tr → (∀ t o, Event.ended t .init o ∈ tr → o = .panicked) ∧
      ∀ t l x a, Event.ended t (.record l x) (.written (some a)) ∈ tr → a = .other) ∧
    (InitDone tr → (∀ t o, Event.ended t .init o ∈ tr → o = .returned) ∧ ¬ OtherInstalled tr ∧
      ∀ t l x a, Event.ended t (.record l x) (.written (some a)) ∈ tr → a = .uecho) := by
  obtain ⟨hs, ht, hc⟩ := log_inv h
  refine ⟨?_, ?_, ?_⟩
  · intro t l x a u l' x' b h1 h2
    have g1 := ht.written _ _ _ _ h1
    rw [ht.written _ _ _ _ h2] at g1
    cases g1; rfl
  · intro ho
    have hf := ht.other.mpr ho
    refine ⟨?_, ?_⟩
    · intro t o hm
      rcases hc.ends t _ o hm rfl with rfl | rfl
      · have := hs.late t (Or.inr (Or.inr (ht.returned t hm)))
        rw [hf] at this; cases this
      · rfl
    · intro t l x a hm
      have g := ht.written _ _ _ _ hm
      rw [hf] at g; cases g; rfl
  · rintro ⟨u, hu⟩
    have hcomp := ht.returned u hu
    have hf := hs.late u (Or.inr (Or.inr hcomp))
    refine ⟨?_, ?_, ?_⟩
    · intro t o hm
      rcases hc.ends t _ o hm rfl with rfl | rfl
      · rfl
      · have := ht.panicked t hm
        rw [hcomp] at this; cases this
    · intro ho
      have := ht.other.mpr ho
      rw [hf] at this; cases this
    · intro t l x a hm
      have g := ht.written _ _ _ _ hm
      rw [hf] at g; cases g; rfl

/-! ## Nobody waits forever -/

/-- How far a thread is from the end of its call. -/
def pcRank : Pc → Nat
  | .idle => 0
  | .once => 6
  | .setLogger _ => 5
  | .writing _ => 4
  | .maxLevel => 3
  | .completing => 2
  | .unwinding => 1
  | .compare _ _ => 2
  | .give _ _ _ => 1

/-- As long as some thread is in a call, some thread can make a step that is not a new call. -/
theorem log_progress {w : World} (hs : LogState w) {t : Nat} (ht : w.pc t ≠ .idle) :
    ∃ u e w', Step u w e w' ∧ ∀ c, e ≠ some (.called u c) := by
  -- a thread that is in `set_logger` can go on, or the one that is writing can
  have hset : ∀ u x, w.pc u = .setLogger x → ∃ u e w', Step u w e w' ∧ ∀ c, e ≠ some (.called u c) := by
    intro u x hu
    cases hf : w.facade with
    | uninitialized => exact ⟨u, _, _, .claim x hu hf, nofun⟩
    | initializing v y =>
      have := (hs.fac v y).mpr hf
      cases y with
      | uecho => exact ⟨v, _, _, .wroteOwn this, nofun⟩
      | other => exact ⟨v, _, _, .wroteOther this, nofun⟩
    | initialized y =>
      cases x with
      | uecho => exact ⟨u, _, _, .refusedOwn y hu hf, nofun⟩
      | other => exact ⟨u, _, _, .refusedOther y hu hf, nofun⟩
  have hrun : ∀ u, (w.pc u = .setLogger .uecho ∨ w.pc u = .writing .uecho ∨ w.pc u = .maxLevel ∨ w.pc u = .completing ∨
      w.pc u = .unwinding) → ∃ u e w', Step u w e w' ∧ ∀ c, e ≠ some (.called u c) := by
    rintro u (h | h | h | h | h)
    · exact hset u _ h
    · exact ⟨u, _, _, .wroteOwn h, nofun⟩
    · exact ⟨u, _, _, .raise h, nofun⟩
    · exact ⟨u, _, _, .complete h, nofun⟩
    · exact ⟨u, _, _, .poison h, nofun⟩
  cases hp : w.pc t with
  | idle => exact absurd hp ht
  | once =>
    cases ho : w.once with
    | new => exact ⟨t, _, _, .onceNew hp ho, nofun⟩
    | running u => exact hrun u ((hs.own u).mpr ho)
    | complete => exact ⟨t, _, _, .onceDone hp ho, nofun⟩
    | poisoned => exact ⟨t, _, _, .oncePoisoned hp ho, nofun⟩
  | setLogger x => exact hset t x hp
  | writing x =>
    cases x with
    | uecho => exact hrun t (Or.inr (Or.inl hp))
    | other => exact ⟨t, _, _, .wroteOther hp, nofun⟩
  | maxLevel => exact ⟨t, _, _, .raise hp, nofun⟩
  | completing => exact ⟨t, _, _, .complete hp, nofun⟩
  | unwinding => exact ⟨t, _, _, .poison hp, nofun⟩
  | compare l x => exact ⟨t, _, _, .compared l x hp, nofun⟩
  | give l x p =>
    by_cases hf : p = false ∨ ∀ which, w.facade ≠ .initialized which
    · exact ⟨t, _, _, .dropped l x p hp hf, nofun⟩
    · have hf := not_or.mp hf
      obtain ⟨which, hw⟩ := Classical.not_forall.mp hf.2
      have hw := Classical.not_not.mp hw
      have : p = true := by cases p <;> simp_all
      subst this
      exact ⟨t, _, _, .given which l x hp hw, nofun⟩

/-- A step that is not a new call brings its thread nearer to the end of its call. -/
theorem log_rank {t : Nat} {w w' : World} {e : Option Event} (h : Step t w e w') (he : ∀ c, e ≠ some (.called t c)) :
    pcRank (w'.pc t) < pcRank (w.pc t) ∧ ∀ u, u ≠ t → w'.pc u = w.pc u := by
  cases h with
  | callInit _ => exact absurd rfl (he _)
  | callInstall _ => exact absurd rfl (he _)
  | callRecord _ _ _ => exact absurd rfl (he _)
  | _ =>
    refine ⟨?_, fun u hu => by rw [pcCall_set, if_neg hu]⟩
    rw [pcCall_set, if_pos rfl]
    simp_all [pcRank]

theorem sum_rank_lt {w w' : World} {t : Nat} (hlt : pcRank (w'.pc t) < pcRank (w.pc t))
    (hp : ∀ u, u ≠ t → w'.pc u = w.pc u) : ∀ ts : List Nat, t ∈ ts →
    (ts.map (fun u => pcRank (w'.pc u))).sum < (ts.map (fun u => pcRank (w.pc u))).sum := by
  have hle : ∀ ts : List Nat, (ts.map (fun u => pcRank (w'.pc u))).sum ≤ (ts.map (fun u => pcRank (w.pc u))).sum := by
    intro ts
    induction ts with
    | nil => exact Nat.le_refl _
    | cons a as ih =>
      simp only [List.map_cons, List.sum_cons]
      by_cases ha : a = t
      · subst ha; omega
      · rw [hp a ha]; omega
  intro ts ht
  induction ts with
  | nil => simp at ht
  | cons a as ih =>
    simp only [List.map_cons, List.sum_cons]
    by_cases ha : a = t
    · subst ha; have := hle as; omega
    · rw [hp a ha]
      have := ih (by simpa [Ne.symm ha] using ht)
      omega

/-- C92: nobody waits forever: from every state in which some thread is in a call some thread can go on without a new call,
without new calls this cannot continue forever, and in the end every call has ended, whichever threads made it. -/
theorem C92_ends (tr : List Event) (w : World) (h : Runs tr w) :
    ((∃ t, Busy t tr) → ∃ t e w', Step t w e w' ∧ ∀ c, e ≠ some (.called t c)) ∧
    (¬ ∃ f : Nat → World, f 0 = w ∧ ∀ k, ∃ t e, Step t (f k) e (f (k + 1)) ∧ ∀ c, e ≠ some (.called t c)) ∧
    ∃ ev w', Runs (tr ++ ev) w' ∧ (∀ t c, Event.called t c ∉ ev) ∧ ∀ t, ¬ Busy t (tr ++ ev) := by
  obtain ⟨hs, ht, hc⟩ := log_inv h
  -- all threads that are in a call
  have hfin : ∀ t, w.pc t ≠ .idle → t ∈ tr.map Event.thread := by
    intro t hp
    have : ∃ c, pcCall (w.pc t) = some c := by
      cases hq : w.pc t with
      | idle => exact absurd hq hp
      | setLogger x => cases x <;> exact ⟨_, rfl⟩
      | writing x => cases x <;> exact ⟨_, rfl⟩
      | _ => exact ⟨_, rfl⟩
    obtain ⟨c, hc'⟩ := this
    obtain ⟨pre, mid, he, _⟩ := hc.open_ t c hc'
    rw [he]; simp [Event.thread]
  have nstep : ∀ {v v' : World} {t : Nat} {e : Option Event}, Step t v e v' → (∀ c, e ≠ some (.called t c)) →
      (∀ u, v.pc u ≠ .idle → u ∈ tr.map Event.thread) →
      (∀ u, v'.pc u ≠ .idle → u ∈ tr.map Event.thread) ∧
      ((tr.map Event.thread).map (fun u => pcRank (v'.pc u))).sum < ((tr.map Event.thread).map (fun u => pcRank (v.pc u))).sum := by
    intro v v' t e hst he hin
    obtain ⟨h1, h2⟩ := log_rank hst he
    have hm : t ∈ tr.map Event.thread := hin t (by intro h0; rw [h0] at h1; simp [pcRank] at h1)
    refine ⟨?_, sum_rank_lt h1 h2 _ hm⟩
    intro u hu
    by_cases hut : u = t
    · rw [hut]; exact hm
    · rw [h2 u hut] at hu; exact hin u hu
  refine ⟨?_, ?_, ?_⟩
  · rintro ⟨t, pre, c, mid, he, hmid⟩
    have := (hc.place t pre c mid he hmid).1
    exact log_progress hs (t := t) (by intro h0; rw [h0] at this; simp [pcCall] at this)
  · rintro ⟨f, hf0, hf⟩
    have key : ∀ k, (∀ u, (f k).pc u ≠ .idle → u ∈ tr.map Event.thread) ∧
        ((tr.map Event.thread).map (fun u => pcRank ((f k).pc u))).sum + k ≤
          ((tr.map Event.thread).map (fun u => pcRank (w.pc u))).sum := by
      intro k
      induction k with
      | zero => rw [hf0]; exact ⟨hfin, Nat.le_refl _⟩
      | succ k ih =>
        obtain ⟨t, e, hst, he⟩ := hf k
        obtain ⟨h1, h2⟩ := nstep hst he ih.1
        exact ⟨h1, by have := ih.2; omega⟩
    have := (key (((tr.map Event.thread).map (fun u => pcRank (w.pc u))).sum + 1)).2
    omega
  · suffices hgo : ∀ n ev (v : World), Runs (tr ++ ev) v → (∀ t c, Event.called t c ∉ ev) →
        (∀ u, v.pc u ≠ .idle → u ∈ tr.map Event.thread) →
        ((tr.map Event.thread).map (fun u => pcRank (v.pc u))).sum ≤ n →
        ∃ ev w', Runs (tr ++ ev) w' ∧ (∀ t c, Event.called t c ∉ ev) ∧ ∀ t, ¬ Busy t (tr ++ ev) from
      hgo _ [] w (by simpa using h) (by simp) hfin (Nat.le_refl _)
    intro n
    induction n with
    | zero =>
      intro ev v hr hev hin hn
      by_cases hidle : ∃ t, v.pc t ≠ .idle
      · obtain ⟨t, hti⟩ := hidle
        obtain ⟨u, e, v', hst, he⟩ := log_progress (log_inv hr).1 hti
        have := (nstep hst he hin).2
        omega
      · refine ⟨ev, v, hr, hev, ?_⟩
        rintro t ⟨pre, c, mid, he, hmid⟩
        have := ((log_inv hr).2.2.place t pre c mid he hmid).1
        exact hidle ⟨t, by intro h0; rw [h0] at this; simp [pcCall] at this⟩
    | succ n ih =>
      intro ev v hr hev hin hn
      by_cases hidle : ∃ t, v.pc t ≠ .idle
      · obtain ⟨t, hti⟩ := hidle
        obtain ⟨u, e, v', hst, he⟩ := log_progress (log_inv hr).1 hti
        obtain ⟨h1, h2⟩ := nstep hst he hin
        have hr' := Runs.step hr hst
        rw [List.append_assoc] at hr'
        refine ih (ev ++ e.toList) v' hr' ?_ h1 (by omega)
        intro t' c hm
        rcases List.mem_append.mp hm with hm | hm
        · exact hev _ _ hm
        · cases e with
          | none => simp at hm
          | some e =>
            simp at hm
            subst hm
            have : t' = u := by cases hst <;> rfl
            subst this
            exact he c rfl
      · refine ⟨ev, v, hr, hev, ?_⟩
        rintro t ⟨pre, c, mid, he, hmid⟩
        have := ((log_inv hr).2.2.place t pre c mid he hmid).1
        exact hidle ⟨t, by intro h0; rw [h0] at this; simp [pcCall] at this⟩

/-- Thread 1 and thread 2 call `init` at the same time, thread 2 gets ahead, thread 1 waits; then thread 1 logs a record. -/
example : ∃ w, Runs [.called 1 .init, .called 2 .init, .ended 2 .init .returned, .ended 1 .init .returned,
    .called 1 (.record .trace ['a']), .ended 1 (.record .trace ['a']) (.written (some .uecho))] w := by
  have h0 := Runs.start
  have h1 := Runs.step h0 (Step.callInit (t := 1) rfl)
  have h2 := Runs.step h1 (Step.callInit (t := 2) rfl)
  have h3 := Runs.step h2 (Step.onceNew (t := 2) rfl rfl)
  have h4 := Runs.step h3 (Step.claim (t := 2) .uecho rfl rfl)
  have h5 := Runs.step h4 (Step.wroteOwn (t := 2) rfl)
  have h6 := Runs.step h5 (Step.raise (t := 2) rfl)
  have h7 := Runs.step h6 (Step.complete (t := 2) rfl)
  have h8 := Runs.step h7 (Step.onceDone (t := 1) rfl rfl)
  have h9 := Runs.step h8 (Step.callRecord (t := 1) rfl .trace ['a'])
  have h10 := Runs.step h9 (Step.compared (t := 1) .trace ['a'] rfl)
  exact ⟨_, Runs.step h10 (Step.given (t := 1) .uecho .trace ['a'] rfl rfl)⟩

/-- The application installs its own logger first: `init` panics, and the other logger is used (at the level the application
chooses; here nothing has raised it, so the record is dropped). -/
example : ∃ w, Runs [.called 1 .install, .ended 1 .install (.installed true), .called 2 .init, .ended 2 .init .panicked,
    .called 3 .init, .ended 3 .init .panicked] w := by
  have h0 := Runs.start
  have h1 := Runs.step h0 (Step.callInstall (t := 1) rfl)
  have h2 := Runs.step h1 (Step.claim (t := 1) .other rfl rfl)
  have h3 := Runs.step h2 (Step.wroteOther (t := 1) rfl)
  have h4 := Runs.step h3 (Step.callInit (t := 2) rfl)
  have h5 := Runs.step h4 (Step.onceNew (t := 2) rfl rfl)
  have h6 := Runs.step h5 (Step.refusedOwn (t := 2) .other rfl rfl)
  have h7 := Runs.step h6 (Step.poison (t := 2) rfl)
  have h8 := Runs.step h7 (Step.callInit (t := 3) rfl)
  exact ⟨_, Runs.step h8 (Step.oncePoisoned (t := 3) rfl rfl)⟩

end Uecho
