import Verif.Spec.Descriptors
import Verif.Props.Servers
/-!
# C95: the sockets of a transport
-/
namespace Uecho.Live
open Spec

/-- Executions with counts are executions. -/
theorem CRuns.runs {tr : List Ev} {φ : Counted} (h : CRuns tr φ) : Runs tr φ.st := by
  induction h with
  | new => exact .new
  | step _ hs ih =>
    cases hs with
    | thread s v v' _ hv hr => exact ih.step (.thread s v v' _ hv hr)
    | caller op a as _ σ' hc hd => exact ih.step (.caller op a as _ σ' hc hd)
    | invoke op hc => exact ih.step (.invoke op hc)

/-- All executions can be counted. -/
theorem Runs.counted {tr : List Ev} {σ : St} (h : Runs tr σ) : ∃ φ, CRuns tr φ ∧ φ.st = σ := by
  induction h with
  | new => exact ⟨_, .new, rfl⟩
  | step _ hs ih =>
    obtain ⟨φ, h, rfl⟩ := ih
    cases hs with
    | thread s v v' _ hv hr => exact ⟨_, h.step (.thread s v v' _ hv hr), rfl⟩
    | caller op a as _ _ hc hd => exact ⟨_, h.step (.caller op a as _ _ hc hd), rfl⟩
    | invoke op hc => exact ⟨_, h.step (.invoke op hc), rfl⟩

theorem over_iff {v : Srv} : v.pc.over = true ↔ DeadSrv v := by
  unfold DeadSrv Pc.over
  cases v.pc <;> simp

theorem foldl_letGo (l : List Nat) : ∀ (held : List Nat), l.Nodup → ∀ s : Nat,
    (l.foldl letGo held)[s]? = held[s]?.map (fun c => if s ∈ l then c - 1 else c) := by
  induction l with
  | nil => intro held _ s; simp
  | cons x l ih =>
    intro held hn s
    obtain ⟨hx, hn⟩ := List.nodup_cons.mp hn
    rw [List.foldl_cons, ih _ hn]
    simp only [letGo, List.getElem?_modify, Option.map_eq_map]
    cases held[s]? with
    | none => rfl
    | some c =>
      simp only [Option.map_some, List.mem_cons]
      by_cases h : x = s
      · subst h; simp [hx]
      · have : s ≠ x := fun e => h e.symm
        simp [h, this]

theorem foldl_letGo_length (l : List Nat) : ∀ (held : List Nat), (l.foldl letGo held).length = held.length := by
  induction l with
  | nil => intro held; rfl
  | cons x l ih => intro held; rw [List.foldl_cons, ih]; simp [letGo]

structure CInv (φ : Counted) : Prop where
  len : φ.held.length = φ.st.srvs.length
  nodup : (φ.st.ucast ++ φ.st.mcast).Nodup
  count : ∀ (s : Nat) v, φ.st.srvs[s]? = some v →
    φ.held[s]? = some ((if s ∈ φ.st.ucast ++ φ.st.mcast then 1 else 0) + (if v.pc.over then 0 else 1))

/-- Nothing that matters has changed. -/
theorem CInv.same {φ φ' : Counted} (h : CInv φ) (hh : φ'.held = φ.held) (hu : φ'.st.ucast = φ.st.ucast)
    (hm : φ'.st.mcast = φ.st.mcast) (hl : φ'.st.srvs.length = φ.st.srvs.length)
    (hp : ∀ (s : Nat) v', φ'.st.srvs[s]? = some v' → ∃ v, φ.st.srvs[s]? = some v ∧ v'.pc = v.pc) : CInv φ' := by
  refine ⟨by rw [hh, hl, h.len], by rw [hu, hm]; exact h.nodup, ?_⟩
  intro s v' hv'
  obtain ⟨v, hv, e⟩ := hp s v' hv'
  rw [hh, hu, hm, e]
  exact h.count s v hv

theorem modify_pc {σ : St} {s : Nat} {f : Srv → Srv} (hf : ∀ v, (f v).pc = v.pc) (s' : Nat) (v' : Srv)
    (h : (σ.srvs.modify s f)[s']? = some v') : ∃ v, σ.srvs[s']? = some v ∧ v'.pc = v.pc := by
  rw [List.getElem?_modify] at h
  obtain ⟨v, hv, rfl⟩ := Option.map_eq_some_iff.mp h
  refine ⟨v, hv, ?_⟩
  split
  · exact hf v
  · rfl

theorem CInv.spawned {φ φ' : Counted} (h : CInv φ) (inv : StInv φ.st) (ip : IpAddr) (hh : φ'.held = φ.held ++ [2])
    (hs : φ'.st.srvs = φ.st.srvs ++ [Srv.spawned ip])
    (hp : (φ'.st.ucast ++ φ'.st.mcast).Perm (φ.st.srvs.length :: (φ.st.ucast ++ φ.st.mcast))) : CInv φ' := by
  have hnew : φ.st.srvs.length ∉ φ.st.ucast ++ φ.st.mcast := by
    intro hm
    exact absurd (inv.ids _ (List.mem_append.mp hm)) (Nat.lt_irrefl _)
  refine ⟨by rw [hh, hs]; simp [h.len], hp.nodup_iff.mpr (List.nodup_cons.mpr ⟨hnew, h.nodup⟩), ?_⟩
  intro s v hv
  rw [hs] at hv
  rw [hh]
  by_cases hlt : s < φ.st.srvs.length
  · rw [List.getElem?_append_left hlt] at hv
    rw [List.getElem?_append_left (by rw [h.len]; exact hlt), h.count s v hv]
    have : (s ∈ φ'.st.ucast ++ φ'.st.mcast) ↔ (s ∈ φ.st.ucast ++ φ.st.mcast) := by
      rw [hp.mem_iff, List.mem_cons]
      constructor
      · rintro (e | h)
        · omega
        · exact h
      · exact Or.inr
    simp only [this]
  · have hs : s = φ.st.srvs.length := by
      have := (List.getElem?_eq_some_iff.mp hv).1
      simp at this; omega
    subst hs
    simp only [List.length_singleton, List.getElem?_concat_length, Option.some.injEq] at hv
    subst hv
    have : φ.st.srvs.length ∈ φ'.st.ucast ++ φ'.st.mcast := hp.mem_iff.mpr (by simp)
    rw [if_pos this, ← h.len]
    simp [Srv.spawned, Pc.over]

theorem CInv.step {φ φ' : Counted} {w : Who} {evs : List Ev} (h : CInv φ) (inv : StInv φ.st) (hs : CStep φ w evs φ') :
    CInv φ' := by
  cases hs with
  | invoke op hc => exact h.same rfl rfl rfl rfl (fun s v hv => ⟨v, hv, rfl⟩)
  | thread s v v' _ hv hr =>
    have hd : v.pc.over = false := by
      have := (recv_dead hr).1
      rw [← over_iff] at this
      simpa using this
    have hlt : s < φ.st.srvs.length := (List.getElem?_eq_some_iff.mp hv).1
    refine ⟨?_, h.nodup, ?_⟩
    · simp only [List.length_set]
      split
      · simp [letGo, h.len]
      · exact h.len
    · intro s' u hu
      simp only [List.getElem?_set] at hu
      by_cases he : s = s'
      · subst he
        simp only [if_true, if_pos hlt, Option.some.injEq] at hu
        subst hu
        have hc := h.count s v hv
        rw [hd] at hc
        simp only [Bool.false_eq_true, if_false] at hc
        by_cases ho : v'.pc.over = true
        · simp only [ho, if_true, letGo, List.getElem?_modify, hc, Option.map_eq_map, Option.map_some, Nat.add_sub_cancel, Nat.add_zero]
        · rw [if_neg ho, if_neg ho]; exact hc
      · rw [if_neg he] at hu
        have hc := h.count s' u hu
        have : (if v'.pc.over then letGo φ.held s else φ.held)[s']? = φ.held[s']? := by
          split
          · simp [letGo, List.getElem?_modify, he]
          · rfl
        simp only [this]
        exact hc
  | caller op a as _ σ' hc hd =>
    cases hd with
    | spawnM e hb =>
      refine h.spawned inv e.addr (by simp [Act.counts, hb]) rfl ?_
      simp only [← List.append_assoc]
      exact (List.perm_append_singleton _ _)
    | skipM e hb => exact h.same (by simp [Act.counts, hb]) rfl rfl rfl (fun s v hv => ⟨v, hv, rfl⟩)
    | crashM e hb => exact h.same (by simp [Act.counts, hb]) rfl rfl rfl (fun s v hv => ⟨v, hv, rfl⟩)
    | readyM _ => exact h.same rfl rfl rfl rfl (fun s v hv => ⟨v, hv, rfl⟩)
    | failM _ => exact h.same rfl rfl rfl rfl (fun s v hv => ⟨v, hv, rfl⟩)
    | spawnU e hb =>
      refine h.spawned inv e.addr (by simp [Act.counts, hb]) rfl ?_
      simp only [List.append_assoc]
      exact List.perm_middle
    | skipU e hb => exact h.same (by simp [Act.counts, hb]) rfl rfl rfl (fun s v hv => ⟨v, hv, rfl⟩)
    | readyU _ => exact h.same rfl rfl rfl rfl (fun s v hv => ⟨v, hv, rfl⟩)
    | failU _ => exact h.same rfl rfl rfl rfl (fun s v hv => ⟨v, hv, rfl⟩)
    | flag s => exact h.same rfl rfl rfl (by simp [St.modify]) (modify_pc (fun _ => rfl))
    | joined s v hv hh hp => exact h.same rfl rfl rfl (by simp [St.modify]) (modify_pc (fun _ => rfl))
    | joinCrash s v hv hh hp => exact h.same rfl rfl rfl (by simp [St.modify]) (modify_pc (fun _ => rfl))
    | noHandle s v hv hh => exact h.same rfl rfl rfl rfl (fun s v hv => ⟨v, hv, rfl⟩)
    | observe s o v hv hn hp => exact h.same rfl rfl rfl (by simp [St.modify]) (modify_pc (fun _ => rfl))
    | observeCrash s o v hv hn hp => exact h.same rfl rfl rfl rfl (fun s v hv => ⟨v, hv, rfl⟩)
    | ret r => exact h.same rfl rfl rfl rfl (fun s v hv => ⟨v, hv, rfl⟩)
    | clearU =>
      obtain ⟨n1, n2, n3⟩ := List.nodup_append.mp h.nodup
      refine ⟨by simp [Act.counts, foldl_letGo_length, h.len], by simpa using n2, ?_⟩
      intro s v hv
      simp only [Act.counts, foldl_letGo _ _ n1, h.count s v hv, Option.map_some, List.nil_append, List.mem_append]
      by_cases h1 : s ∈ φ.st.ucast
      · have h2 : s ∉ φ.st.mcast := fun h2 => n3 s h1 s h2 rfl
        simp [h1, h2]
      · simp [h1]
    | clearM =>
      obtain ⟨n1, n2, n3⟩ := List.nodup_append.mp h.nodup
      refine ⟨by simp [Act.counts, foldl_letGo_length, h.len], by simpa using n1, ?_⟩
      intro s v hv
      simp only [Act.counts, foldl_letGo _ _ n2, h.count s v hv, Option.map_some, List.append_nil, List.mem_append]
      by_cases h1 : s ∈ φ.st.mcast
      · have h2 : s ∉ φ.st.ucast := fun h2 => n3 s h2 s h1 rfl
        simp [h1, h2]
      · simp [h1]

theorem cruns_inv {tr : List Ev} {φ : Counted} (h : CRuns tr φ) : CInv φ := by
  induction h with
  | new => exact ⟨rfl, by simp [St.new], by intro s v hv; simp [St.new] at hv⟩
  | step h hs ih => exact ih.step (runs_inv h.runs) hs

/-- C95: no socket is leaked or closed too early: in every execution, whatever is received and whatever panics, a socket is
open exactly if its server is in one of the transport's vectors, and each of the two that use a socket (the server while it
is in a vector, the receiver thread until it has ended) holds exactly one reference. -/
theorem C95_owned (tr : List Ev) (φ : Counted) (h : CRuns tr φ) (s : Nat) :
    (SocketOpen φ s ↔ s ∈ φ.st.ucast ∨ s ∈ φ.st.mcast) ∧ (φ.st.ucast ++ φ.st.mcast).Nodup ∧
    ∀ v, φ.st.srvs[s]? = some v → φ.held[s]? = some
      ((if s ∈ φ.st.ucast ++ φ.st.mcast then 1 else 0) + if v.pc = .finished ∨ v.pc = .panicked then 0 else 1) := by
  have inv := cruns_inv h
  have sinv := runs_inv h.runs
  refine ⟨?_, inv.nodup, ?_⟩
  · constructor
    · rintro ⟨c, hc, hpos⟩
      have hlt : s < φ.st.srvs.length := by rw [← inv.len]; exact (List.getElem?_eq_some_iff.mp hc).1
      have hv := List.getElem?_eq_getElem hlt
      rw [inv.count s _ hv] at hc
      by_cases hm : s ∈ φ.st.ucast ++ φ.st.mcast
      · exact List.mem_append.mp hm
      · rw [if_neg hm] at hc
        by_cases ho : φ.st.srvs[s].pc.over = true
        · simp only [ho, if_true, Option.some.injEq] at hc; omega
        · exact sinv.reg s ⟨_, hv, fun hd => ho (over_iff.mpr hd)⟩
    · intro hm
      have hv := List.getElem?_eq_getElem (sinv.ids s hm)
      refine ⟨_, inv.count s _ hv, ?_⟩
      rw [if_pos (List.mem_append.mpr hm)]; omega
  · intro v hv
    rw [inv.count s v hv]
    congr 2
    by_cases hd : DeadSrv v
    · rw [if_pos (over_iff.mpr hd)]; exact (if_pos hd).symm
    · rw [if_neg (fun h => hd (over_iff.mp h))]; exact (if_neg hd).symm

/-! ## Closed after stop -/

theorem empty_step {σ σ' : St} {w : Who} {evs : List Ev} (inv : StInv σ) (he : σ.ucast = [] ∧ σ.mcast = [])
    (hc : ∀ op acts, σ.caller = some ⟨op, acts⟩ → ¬ IsStart op) (hs : Step σ w evs σ') : σ'.ucast = [] ∧ σ'.mcast = [] := by
  cases hs with
  | thread s v v' _ hv hr => exact he
  | invoke op hc => exact he
  | caller op a as _ _ hcal hd =>
    have nospawn : (∀ e, a ≠ .spawnM e) ∧ ∀ e, a ≠ .spawnU e := by
      cases inv.job _ _ hcal with
      | starting ho _ => exact (hc _ _ hcal ho).elim
      | stopping h _ => rcases h.head with ⟨s, rfl⟩ | ⟨s, rfl⟩ | rfl | rfl | ⟨_, r, rfl, _⟩ <;> simp
      | observing o ho h => rcases h a (by simp) with ⟨s, _, rfl⟩ | rfl <;> simp
    cases hd with
    | spawnM e hb => exact (nospawn.1 e rfl).elim
    | spawnU e hb => exact (nospawn.2 e rfl).elim
    | clearU => exact ⟨rfl, he.2⟩
    | clearM => exact ⟨he.1, rfl⟩
    | _ => exact he

theorem empty_inv {tr : List Ev} {σ : St} (h : Runs tr σ) (p₁ p₂ : List Ev) (e : Ev) (htr : tr = p₁ ++ e :: p₂)
    (hst : Stops e) (hns : ∀ x ∈ p₂, ¬ Starts x) : σ.ucast = [] ∧ σ.mcast = [] := by
  induction h generalizing p₂ with
  | new => simp at htr
  | @step tr σ σ' w evs h hs ih =>
    rcases split_append htr with ⟨s, h1⟩ | ⟨s, s', h1, h2⟩
    · have hp : p₂ = s ++ evs := by
        rw [h1] at htr
        simp only [List.append_assoc, List.cons_append, List.append_cancel_left_eq, List.cons.injEq, true_and] at htr
        exact htr.symm
      subst hp
      have hns' : ∀ x ∈ s, ¬ Starts x := fun x hx => hns x (by simp [hx])
      exact empty_step (runs_inv h) (ih s h1 hns') (silent_inv h p₁ s e h1 hst hns').2.1 hs
    · exact (stops_step (runs_inv h) hs (by rw [h2]; simp) hst).2.2.2

/-- C95: once `stop` has returned, or `start` has returned `false`, no socket is open until `start` is called again. -/
theorem C95_closed (tr p₁ p₂ : List Ev) (φ : Counted) (e : Ev) (h : CRuns tr φ) (htr : tr = p₁ ++ e :: p₂) (hst : Stops e)
    (hns : ∀ x ∈ p₂, ¬ Starts x) : ∀ s, ¬ SocketOpen φ s := by
  intro s hs
  obtain ⟨h1, h2⟩ := empty_inv h.runs p₁ p₂ e htr hst hns
  have := (C95_owned tr φ h s).1.mp hs
  rw [h1, h2] at this
  simp at this

/-! ## How many are open -/

theorem filter_range (l : List Nat) : (l.filter (fun c => decide (0 < c))).length =
    ((List.range l.length).filter (fun i => decide (∃ c, l[i]? = some c ∧ 0 < c))).length := by
  induction l with
  | nil => rfl
  | cons x l ih =>
    rw [List.length_cons, List.range_succ_eq_map, List.filter_cons, List.filter_cons, List.filter_map]
    have e : ((fun i => decide (∃ c, (x :: l)[i]? = some c ∧ 0 < c)) ∘ Nat.succ) =
        (fun i => decide (∃ c, l[i]? = some c ∧ 0 < c)) := by
      funext i; simp
    rw [e]
    have e0 : decide (∃ c, (x :: l)[0]? = some c ∧ 0 < c) = decide (0 < x) := by simp
    rw [e0]
    by_cases hx : 0 < x
    · simp only [hx, decide_true, if_true, List.length_cons, List.length_map, ih]
    · simp only [hx, decide_false, Bool.false_eq_true, if_false, List.length_map, ih]

def spawnsM (acts : List Act) : Nat := acts.countP (fun a => match a with | .spawnM _ => true | _ => false)
def spawnsU (acts : List Act) : Nat := acts.countP (fun a => match a with | .spawnU _ => true | _ => false)

theorem spawnsM_cons (a : Act) (as : List Act) :
    spawnsM (a :: as) = spawnsM as + (if (match a with | .spawnM _ => true | _ => false) = true then 1 else 0) := by
  rw [spawnsM, List.countP_cons]; rfl

theorem spawnsU_cons (a : Act) (as : List Act) :
    spawnsU (a :: as) = spawnsU as + (if (match a with | .spawnU _ => true | _ => false) = true then 1 else 0) := by
  rw [spawnsU, List.countP_cons]; rfl

structure BInv (M U : Nat) (σ : St) : Prop where
  m : σ.mcast.length ≤ M
  u : σ.ucast.length ≤ U
  job : ∀ op acts, σ.caller = some ⟨op, acts⟩ → σ.mcast.length + spawnsM acts ≤ M ∧ σ.ucast.length + spawnsU acts ≤ U

theorem stopActs_spawns (σ : St) (r : Bool) : spawnsM (σ.stopActs r) = 0 ∧ spawnsU (σ.stopActs r) = 0 := by
  constructor <;>
  · rw [← Nat.le_zero, Nat.le_zero]
    simp only [spawnsM, spawnsU, List.countP_eq_zero]
    intro a ha
    simp only [St.stopActs, List.mem_append, List.mem_flatMap, List.mem_cons, List.not_mem_nil, or_false] at ha
    rcases ha with ((⟨s, _, h | h⟩ | h) | ⟨s, _, h | h⟩) | h | h <;> subst h <;> simp

theorem actsOf_spawns (σ : St) (op : MOp) (M U : Nat) (hm : σ.mcast.length ≤ M) (hu : σ.ucast.length ≤ U)
    (hb : ∀ menv uenv, op = .start menv uenv → menv.length ≤ M ∧ uenv.length ≤ U) :
    σ.mcast.length + spawnsM (σ.actsOf op) ≤ M ∧ σ.ucast.length + spawnsU (σ.actsOf op) ≤ U := by
  cases op with
  | start menv uenv =>
    obtain ⟨b1, b2⟩ := hb menv uenv rfl
    have c1 : ∀ l : List IfOutcome, spawnsM (l.map .spawnM) = l.length := by
      intro l; simp only [spawnsM, List.countP_map]; exact List.countP_eq_length.mpr (fun _ _ => rfl)
    have c2 : ∀ l : List IfOutcome, spawnsU (l.map .spawnU) = l.length := by
      intro l; simp only [spawnsU, List.countP_map]; exact List.countP_eq_length.mpr (fun _ _ => rfl)
    have c3 : ∀ l : List IfOutcome, spawnsM (l.map .spawnU) = 0 := by
      intro l; simp only [spawnsM, List.countP_map]; exact List.countP_eq_zero.mpr (fun _ _ => by simp)
    have c4 : ∀ l : List IfOutcome, spawnsU (l.map .spawnM) = 0 := by
      intro l; simp only [spawnsU, List.countP_map]; exact List.countP_eq_zero.mpr (fun _ _ => by simp)
    have a1 : ∀ l l' : List Act, spawnsM (l ++ l') = spawnsM l + spawnsM l' := fun l l' => List.countP_append
    have a2 : ∀ l l' : List Act, spawnsU (l ++ l') = spawnsU l + spawnsU l' := fun l l' => List.countP_append
    simp only [St.actsOf]
    split
    · simpa [spawnsM, spawnsU] using ⟨hm, hu⟩
    · rw [a1, a1, a1, a2, a2, a2]
      have z : spawnsM [.readyM] = 0 ∧ spawnsU [.readyM] = 0 ∧ spawnsM [.readyU, .ret true] = 0 ∧
        spawnsU [.readyU, .ret true] = 0 := ⟨rfl, rfl, rfl, rfl⟩
      rw [z.1, z.2.1, z.2.2.1, z.2.2.2]
      have em : ∀ l : List Nat, l.isEmpty = true → l.length = 0 := by intro l h; simpa using h
      constructor
      · split <;> split <;> rename_i h1 h2
        · rw [c1, c3, em _ h1]; omega
        · rw [c1, em _ h1]; simp [spawnsM]; omega
        · rw [c3]; simp [spawnsM]; omega
        · simp [spawnsM]; omega
      · split <;> split <;> rename_i h1 h2
        · rw [c4, c2, em _ h2]; omega
        · rw [c4]; simp [spawnsU]; omega
        · rw [c2, em _ h2]; simp [spawnsU]; omega
        · simp [spawnsU]; omega
  | stop =>
    obtain ⟨h1, h2⟩ := stopActs_spawns σ true
    simp only [St.actsOf, h1, h2]; omega
  | addObserver o =>
    have h1 : spawnsM (σ.actsOf (.addObserver o)) = 0 := by
      simp only [spawnsM, List.countP_eq_zero, St.actsOf, List.mem_append, List.mem_map, List.mem_singleton]
      rintro a (⟨s, _, rfl⟩ | rfl) <;> simp
    have h2 : spawnsU (σ.actsOf (.addObserver o)) = 0 := by
      simp only [spawnsU, List.countP_eq_zero, St.actsOf, List.mem_append, List.mem_map, List.mem_singleton]
      rintro a (⟨s, _, rfl⟩ | rfl) <;> simp
    rw [h1, h2]; omega

theorem BInv.step {M U : Nat} {σ σ' : St} {w : Who} {evs : List Ev} (h : BInv M U σ) (hs : Step σ w evs σ')
    (hb : ∀ menv uenv, Ev.invoked (.start menv uenv) ∈ evs → menv.length ≤ M ∧ uenv.length ≤ U) : BInv M U σ' := by
  cases hs with
  | thread s v v' _ hv hr => exact ⟨h.m, h.u, h.job⟩
  | invoke op hc =>
    refine ⟨h.m, h.u, ?_⟩
    intro op' acts hj
    simp only [Option.some.injEq, Job.mk.injEq] at hj
    obtain ⟨rfl, rfl⟩ := hj
    exact actsOf_spawns σ op M U h.m h.u (fun menv uenv e => hb menv uenv (by simp [e]))
  | caller op a as _ _ hcal hd =>
    obtain ⟨j1, j2⟩ := h.job _ _ hcal
    rw [spawnsM_cons] at j1
    rw [spawnsU_cons] at j2
    have next : ∀ τ : St, τ.caller = some ⟨op, as⟩ → τ.mcast.length + spawnsM as ≤ M → τ.ucast.length + spawnsU as ≤ U →
        BInv M U τ := by
      intro τ hτ h1 h2
      refine ⟨by omega, by omega, ?_⟩
      intro op' acts hj
      rw [hτ] at hj
      simp only [Option.some.injEq, Job.mk.injEq] at hj
      obtain ⟨rfl, rfl⟩ := hj
      exact ⟨h1, h2⟩
    have over : ∀ τ : St, τ.caller = none → τ.mcast = σ.mcast → τ.ucast = σ.ucast → BInv M U τ := by
      intro τ hτ h1 h2
      refine ⟨by rw [h1]; exact h.m, by rw [h2]; exact h.u, ?_⟩
      intro op' acts hj
      rw [hτ] at hj; cases hj
    have fails : ∀ r, BInv M U { σ with caller := some ⟨op, σ.stopActs r⟩ } := by
      intro r
      refine ⟨h.m, h.u, ?_⟩
      intro op' acts hj
      simp only [Option.some.injEq, Job.mk.injEq] at hj
      obtain ⟨rfl, rfl⟩ := hj
      obtain ⟨h1, h2⟩ := stopActs_spawns σ r
      simp only [h1, h2]
      exact ⟨h.m, h.u⟩
    cases hd with
    | spawnM e hb => refine next _ rfl ?_ ?_ <;> simp at j1 j2 ⊢ <;> omega
    | spawnU e hb => refine next _ rfl ?_ ?_ <;> simp at j1 j2 ⊢ <;> omega
    | failM _ => exact fails false
    | failU _ => exact fails false
    | crashM e hb => exact over _ rfl rfl rfl
    | joinCrash s v hv hh hp => exact over _ rfl rfl rfl
    | observeCrash s o v hv hn hp => exact over _ rfl rfl rfl
    | ret r => exact over _ rfl rfl rfl
    | clearU => refine next _ rfl ?_ ?_ <;> simp at j1 j2 ⊢ <;> omega
    | clearM => refine next _ rfl ?_ ?_ <;> simp at j1 j2 ⊢ <;> omega
    | _ => refine next _ rfl ?_ ?_ <;> simp [St.modify] at j1 j2 ⊢ <;> omega

theorem runs_bounded {tr : List Ev} {σ : St} (M U : Nat) (h : Runs tr σ)
    (hb : ∀ menv uenv, Ev.invoked (.start menv uenv) ∈ tr → menv.length ≤ M ∧ uenv.length ≤ U) : BInv M U σ := by
  induction h with
  | new => exact ⟨by simp [St.new], by simp [St.new], by intro op acts hc; simp [St.new] at hc⟩
  | step h hs ih =>
    exact (ih (fun m u hm => hb m u (List.mem_append_left _ hm))).step hs (fun m u hm => hb m u (List.mem_append_right _ hm))

/-- C95: the number of open sockets is that of the servers, and however often `start` is called, it is never more than one
per address `start` was offered for multicast and one per address it was offered for unicast. -/
theorem C95_bounded (tr : List Ev) (φ : Counted) (h : CRuns tr φ) (M U : Nat)
    (hb : ∀ menv uenv, Ev.invoked (.start menv uenv) ∈ tr → menv.length ≤ M ∧ uenv.length ≤ U) :
    openSockets φ = φ.st.ucast.length + φ.st.mcast.length ∧ openSockets φ ≤ M + U := by
  have key : openSockets φ = φ.st.ucast.length + φ.st.mcast.length := by
    unfold openSockets
    rw [filter_range, ← List.length_append]
    apply List.Perm.length_eq
    rw [List.perm_ext_iff_of_nodup (List.nodup_range.sublist List.filter_sublist) (C95_owned tr φ h 0).2.1]
    intro s
    rw [List.mem_filter, List.mem_range, List.mem_append, ← (C95_owned tr φ h s).1]
    simp only [decide_eq_true_eq, SocketOpen]
    constructor
    · exact fun h => h.2
    · rintro ⟨c, hc, hp⟩
      exact ⟨(List.getElem?_eq_some_iff.mp hc).1, c, hc, hp⟩
  have b := runs_bounded M U h.runs hb
  exact ⟨key, by have := b.m; have := b.u; omega⟩

/-! ## Stopping again after a panic -/

def spent (v : Srv) : Bool := !v.handle && decide (v.pc = .panicked)

theorem countP_modify {α : Type} (p : α → Bool) (f : α → α) (l : List α) (i : Nat) (x : α) (hx : l[i]? = some x) :
    (l.modify i f).countP p + (if p x then 1 else 0) = l.countP p + (if p (f x) then 1 else 0) := by
  induction l generalizing i with
  | nil => simp at hx
  | cons y l ih =>
    cases i with
    | zero =>
      simp only [List.getElem?_cons_zero, Option.some.injEq] at hx
      subst hx
      simp only [List.modify_zero_cons, List.countP_cons]
      omega
    | succ i =>
      simp only [List.getElem?_cons_succ] at hx
      have := ih i hx
      simp only [List.modify_succ_cons, List.countP_cons]
      omega

theorem countP_modify_none {α : Type} (p : α → Bool) (f : α → α) (l : List α) (i : Nat) (hx : l[i]? = none) :
    (l.modify i f).countP p = l.countP p := by
  rw [List.modify_eq_self (by simpa using hx)]

theorem spent_step {σ σ' : St} {w : Who} {evs : List Ev} (inv : StInv σ) (hs : Step σ w evs σ') :
    σ.srvs.countP spent + stopPanics evs ≤ σ'.srvs.countP spent := by
  have same : ∀ (s : Nat) (f : Srv → Srv), (∀ v, spent (f v) = spent v) → (σ.srvs.modify s f).countP spent = σ.srvs.countP spent := by
    intro s f hf
    cases hx : σ.srvs[s]? with
    | none => exact countP_modify_none _ _ _ _ hx
    | some v =>
      have := countP_modify spent f σ.srvs s v hx
      rw [hf] at this; omega
  cases hs with
  | invoke op hc => simp [stopPanics]
  | thread s v v' _ hv hr =>
    have e : stopPanics evs = 0 := by cases hr <;> simp [stopPanics]
    have hlt := (List.getElem?_eq_some_iff.mp hv).1
    have hvv : σ.srvs[s] = v := (List.getElem?_eq_some_iff.mp hv).2
    obtain ⟨hd, hh⟩ := recv_dead hr
    have hh1 : v.handle = true := by
      cases hx : v.handle with
      | true => rfl
      | false => exact (hd (inv.hand s v hv hx)).elim
    rw [e]
    simp only [List.countP_set hlt, hvv]
    simp [spent, hh, hh1]
  | caller op a as _ _ hcal hd =>
    cases hd with
    | spawnM e hb => simp [stopPanics, List.countP_append]
    | spawnU e hb => simp [stopPanics, List.countP_append]
    | crashM e hb =>
      cases inv.job _ _ hcal with
      | starting ho _ => cases op <;> simp_all [IsStart, stopPanics]
      | stopping h _ => rcases h.head with ⟨s, h⟩ | ⟨s, h⟩ | h | h | ⟨_, r, h, _⟩ <;> cases h
      | observing o ho h => rcases h _ List.mem_cons_self with ⟨s, _, h⟩ | h <;> cases h
    | observeCrash s o v hv hn hp =>
      cases inv.job _ _ hcal with
      | starting ho _ => cases op <;> simp_all [IsStart, stopPanics]
      | stopping h _ => rcases h.head with ⟨s, h⟩ | ⟨s, h⟩ | h | h | ⟨_, r, h, _⟩ <;> cases h
      | observing o ho h => subst ho; simp [stopPanics]
    | joinCrash s v hv hh hp =>
      have := countP_modify spent (fun v => { v with handle := false }) σ.srvs s v hv
      simp only [St.modify]
      have h1 : spent v = false := by simp [spent, hh]
      have h2 : spent { v with handle := false } = true := by simp [spent, hp]
      rw [h1, h2] at this
      have h3 : stopPanics [Ev.crashed op] ≤ 1 := by
        unfold stopPanics
        exact List.length_filter_le _ _
      simp at this
      omega
    | joined s v hv hh hp =>
      have := countP_modify spent (fun v => { v with handle := false }) σ.srvs s v hv
      simp only [St.modify]
      have h1 : spent v = false := by simp [spent, hp]
      have h2 : spent { v with handle := false } = false := by simp [spent, hp]
      rw [h1, h2] at this
      simp [stopPanics] at this ⊢
      omega
    | flag s =>
      simp only [St.modify]
      rw [same s (fun v => { v with stop := true }) (fun _ => rfl)]; simp [stopPanics]
    | observe s o v hv hn hp =>
      simp only [St.modify]
      rw [same s (fun v => { v with observers := v.observers ++ [o] }) (fun _ => rfl)]; simp [stopPanics]
    | _ => simp [stopPanics]

/-- C95: a `stop` that panics because a receiver thread has panicked is not lost: called again it gets further, and it panics
at most once for each thread that has panicked. -/
theorem C95_stop_again (tr : List Ev) (φ : Counted) (h : CRuns tr φ) : stopPanics tr ≤ panickedThreads φ.st := by
  have key : ∀ {tr : List Ev} {σ : St}, Runs tr σ → stopPanics tr ≤ σ.srvs.countP spent := by
    intro tr σ h
    induction h with
    | new => simp [stopPanics]
    | step h hs ih =>
      have := spent_step (runs_inv h) hs
      simp only [stopPanics, List.filter_append, List.length_append] at ih this ⊢
      omega
  refine Nat.le_trans (key h.runs) ?_
  unfold panickedThreads
  rw [← List.countP_eq_length_filter]
  apply List.countP_mono_left
  intro v _ hv
  simp only [spent, Bool.and_eq_true] at hv
  exact hv.2

/-! ## Dropping a manager -/

theorem stopEach_spec (l : List Bool) :
    (stopEach l).1 = decide (0 < l.count true) ∧ (stopEach l).2.count true = l.count true - 1 := by
  induction l with
  | nil => simp [stopEach]
  | cons x l ih =>
    cases x
    · simp [stopEach, ih]
    · simp [stopEach]

theorem stopVec_spec (l : List Bool) :
    (stopVec l).1 = decide (0 < l.count true) ∧ (stopVec l).2.count true = l.count true - 1 := by
  obtain ⟨h1, h2⟩ := stopEach_spec l
  unfold stopVec
  generalize stopEach l = r at h1 h2
  obtain ⟨x, l'⟩ := r
  cases x
  · simp only [] at h1 ⊢
    have : l.count true = 0 := by have := of_decide_eq_false h1.symm; omega
    rw [this]; simp
  · exact ⟨h1, h2⟩

theorem many {n : Nat} (h : 2 ≤ n) :
    (match n with | 0 => DropEnd.returns | 1 => .panics | _ => .aborts) = .aborts := by
  match n, h with
  | _ + 2, _ => rfl

/-- C95: what dropping a transport does depends only on how many of its receiver threads have panicked (`true` in `u` and `m`):
none, and it returns; one, and it panics; more, and the process is aborted. -/
theorem C95_drop (u m : List Bool) : dropManager u m =
    (match u.count true + m.count true with
      | 0 => .returns
      | 1 => .panics
      | _ => .aborts) := by
  unfold dropManager stopBoth dropUnwinding dropVec
  obtain ⟨u1, u2⟩ := stopVec_spec u
  obtain ⟨m1, m2⟩ := stopVec_spec m
  have emp : ∀ l, (stopVec l).1 = false → (stopVec l).2 = [] := by
    intro l h
    unfold stopVec at h ⊢
    cases hx : stopEach l with
    | mk x l' => cases x <;> simp_all
  cases hu : (stopVec u).1 with
  | true =>
    have : stopVec u = (true, (stopVec u).2) := by rw [← hu]
    rw [this]
    simp only []
    rw [(stopVec_spec (stopVec u).2).1, u2, m1]
    rw [hu] at u1
    have : 0 < u.count true := of_decide_eq_true u1.symm
    generalize u.count true = a at this
    generalize m.count true = c
    by_cases h1 : 0 < a - 1
    · rw [many (by omega)]; simp [h1]
    · by_cases h2 : 0 < c
      · rw [many (by omega)]; simp [h2]
      · have e1 : a = 1 := by omega
        have e2 : c = 0 := by omega
        subst e1 e2; rfl
  | false =>
    have h : stopVec u = (false, []) := by rw [← emp u hu, ← hu]
    rw [h]
    rw [hu] at u1
    have hz : u.count true = 0 := by have := of_decide_eq_false u1.symm; omega
    rw [hz]
    cases hm : (stopVec m).1 with
    | true =>
      simp only []
      have e0 : stopVec [] = (false, []) := rfl
      rw [e0, (stopVec_spec (stopVec m).2).1, m2]
      rw [hm] at m1
      have : 0 < m.count true := of_decide_eq_true m1.symm
      generalize m.count true = c at this
      by_cases h1 : 0 < c - 1
      · rw [many (by omega)]; simp [h1]
      · have e1 : c = 1 := by omega
        subst e1; rfl
    | false =>
      simp only [emp m hm]
      rw [hm] at m1
      have hz : m.count true = 0 := by have := of_decide_eq_false m1.symm; omega
      rw [hz]; rfl

/-! ## Executions -/

/-- Two sockets are open while the transport of `exUp` runs (`C95_owned`, `C95_bounded`). -/
example : ∃ tr φ, CRuns tr φ ∧ SocketOpen φ 0 ∧ SocketOpen φ 1 ∧ openSockets φ = 2 := by
  obtain ⟨φ, h, e⟩ := exUp.counted
  refine ⟨_, φ, h, (C95_owned _ φ h 0).1.mpr (Or.inr ?_), (C95_owned _ φ h 1).1.mpr (Or.inl ?_), ?_⟩
  · rw [e]; simp
  · rw [e]; simp
  · rw [(C95_bounded _ φ h 1 1 (by simp)).1, e]; rfl

/-- A transport that has been stopped (`C95_closed`): nothing is open. -/
example : ∃ tr φ, CRuns tr φ ∧ Ev.returned .stop true ∈ tr ∧ ∀ s, ¬ SocketOpen φ s := by
  obtain ⟨m, σ, tr, h, _, _, rfl⟩ := exStopped
  obtain ⟨φ, h, _⟩ := h.counted
  refine ⟨_, φ, h, by simp, C95_closed _ [.invoked (.start [exIf] [exIf]), .returned (.start [exIf] [exIf]) true,
     .invoked (.addObserver (.user 7)), .returned (.addObserver (.user 7)) true,
     .received 1 exDatagram, .notify 1 m [.user 7], .invoked .stop, .called 1 (.user 7) m] [] φ (.returned .stop true) h rfl
     trivial (by simp)⟩

/-- `stop` panics because one datagram has killed a thread, is called again and returns: then all sockets are closed. -/
theorem C95_stop_twice : ∃ tr φ, CRuns tr φ ∧ stopPanics tr = 1 ∧ panickedThreads φ.st = 1 ∧ (∀ s, ¬ SocketOpen φ s) ∧
    tr = [.invoked (.start [exIf] [exIf]), .returned (.start [exIf] [exIf]) true,
     .invoked (.addObserver (.user 7)), .returned (.addObserver (.user 7)) true,
     .received 1 exPoison, .invoked .stop, .crashed .stop, .invoked .stop, .returned .stop true] := by
  have h0 := exUp
  have h1 := Runs.step h0 (.thread 1 _ _ _ rfl (.wait rfl rfl))
  have h2 := Runs.step h1 (.thread 1 _ _ _ rfl (.got exPoison rfl))
  have h3 := Runs.step h2 (.invoke .stop rfl)
  have h4 := Runs.step h3 (.caller _ _ _ _ _ rfl (.flag 1))
  have h5 := Runs.step h4 (.caller _ _ _ _ _ rfl (.joinCrash 1 _ rfl rfl rfl))
  have h6 := Runs.step h5 (.invoke .stop rfl)
  have h7 := Runs.step h6 (.caller _ _ _ _ _ rfl (.flag 1))
  have h8 := Runs.step h7 (.caller _ _ _ _ _ rfl (.noHandle 1 _ rfl rfl))
  have h9 := Runs.step h8 (.caller _ _ _ _ _ rfl .clearU)
  have h10 := Runs.step h9 (.caller _ _ _ _ _ rfl (.flag 0))
  have h11 := Runs.step h10 (.thread 0 _ _ _ rfl (.exit rfl rfl))
  have h12 := Runs.step h11 (.caller _ _ _ _ _ rfl (.joined 0 _ rfl rfl rfl))
  have h13 := Runs.step h12 (.caller _ _ _ _ _ rfl .clearM)
  have h14 := Runs.step h13 (.caller _ _ _ _ _ rfl (.ret true))
  obtain ⟨φ, h, e⟩ := h14.counted
  refine ⟨_, φ, h, rfl, by rw [e]; rfl, ?_, rfl⟩
  intro s hs
  have := (C95_owned _ φ h s).1.mp hs
  rw [e] at this
  simp [St.modify] at this

/-- C95 (the exception): two receiver threads that have panicked abort the process when the manager is dropped, wherever
they are. -/
theorem C95_drop_fails : dropManager [false, true] [true] = .aborts ∧ dropManager [] [true, false, true] = .aborts ∧
    dropManager [false] [true] = .panics ∧ dropManager [false] [false] = .returns := by decide

end Uecho.Live
