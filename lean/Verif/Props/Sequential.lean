import Verif.Spec.Sequential
import Verif.Props.Servers
/-!
# C90: the transport's calls do not depend on its receiver threads
-/
namespace Uecho.Live
open Spec

/-- What is left of the state when the threads are forgotten: address and observers of every server ever created, and the
servers in the two vectors. -/
structure Flat where
  all : List (IpAddr × List ObserverRef)
  u : List Nat
  m : List Nat

def Srv.desc (v : Srv) : IpAddr × List ObserverRef := (v.addr, v.observers)
def St.flat (σ : St) : Flat := ⟨σ.srvs.map Srv.desc, σ.ucast, σ.mcast⟩

def Flat.server (f : Flat) (s : Nat) : Server := ⟨(f.all.getD s (.v4 0, [])).1, (f.all.getD s (.v4 0, [])).2, .running⟩
def Flat.manager (f : Flat) : Manager := ⟨f.u.map f.server, f.m.map f.server⟩

/-- The remaining steps of a call, done at once. -/
def perform : Flat → List Act → Res (Bool × Flat)
  | f, [] => .ok (true, f)
  | f, .spawnM e :: as => match multicastBind e with
    | .ok true => perform { f with all := f.all ++ [(e.addr, [])], m := f.m ++ [f.all.length] } as
    | .ok false => perform f as
    | .panic => .panic
  | f, .readyM :: as => if f.m.isEmpty then .ok (false, { f with u := [], m := [] }) else perform f as
  | f, .spawnU e :: as =>
    if unicastBind e then perform { f with all := f.all ++ [(e.addr, [])], u := f.u ++ [f.all.length] } as else perform f as
  | f, .readyU :: as => if f.u.isEmpty then .ok (false, { f with u := [], m := [] }) else perform f as
  | f, .flag _ :: as => perform f as
  | f, .join _ :: as => perform f as
  | f, .clearU :: as => perform { f with u := [] } as
  | f, .clearM :: as => perform { f with m := [] } as
  | f, .observe s o :: as => perform { f with all := f.all.modify s (fun d => (d.1, d.2 ++ [o])) } as
  | f, .ret r :: _ => .ok (r, f)

def Flat.Ok (f : Flat) : Prop := (f.u ++ f.m).Nodup ∧ ∀ s ∈ f.u ++ f.m, s < f.all.length

theorem recv_desc {s : Nat} {v v' : Srv} {evs : List Ev} (h : Recv s v evs v') : v'.desc = v.desc := by
  cases h <;> try rfl
  rename_i e _
  simp only [Srv.received]
  split <;> rfl

theorem map_modify_desc (l : List Srv) (s : Nat) (f : Srv → Srv) (g : IpAddr × List ObserverRef → IpAddr × List ObserverRef)
    (h : ∀ v, (f v).desc = g v.desc) : (l.modify s f).map Srv.desc = (l.map Srv.desc).modify s g := by
  apply List.ext_getElem?
  intro i
  simp only [List.getElem?_map, List.getElem?_modify]
  split <;> cases l[i]? <;> simp [h]

theorem map_modify_same (l : List Srv) (s : Nat) (f : Srv → Srv) (h : ∀ v, (f v).desc = v.desc) :
    (l.modify s f).map Srv.desc = l.map Srv.desc := by
  apply List.ext_getElem?
  intro i
  simp only [List.getElem?_map, List.getElem?_modify]
  split <;> cases l[i]? <;> simp [h]

theorem map_set_same (l : List Srv) (s : Nat) (v v' : Srv) (hv : l[s]? = some v) (h : v'.desc = v.desc) :
    (l.set s v').map Srv.desc = l.map Srv.desc := by
  apply List.ext_getElem?
  intro i
  simp only [List.getElem?_map, List.getElem?_set]
  split
  · rename_i e; subst e
    rw [hv]
    split <;> simp [h]
    rename_i hlt
    have := (List.getElem?_eq_some_iff.mp hv).1
    omega
  · rfl

theorem perform_stop (f : Flat) (u m : List Nat) (r : Bool) :
    perform f (u.flatMap (fun s => [Act.flag s, .join s]) ++ [.clearU] ++ m.flatMap (fun s => [Act.flag s, .join s]) ++
      [.clearM, .ret r]) = .ok (r, { f with u := [], m := [] }) := by
  have skip : ∀ (l : List Nat) (f : Flat) (as : List Act),
      perform f (l.flatMap (fun s => [Act.flag s, .join s]) ++ as) = perform f as := by
    intro l
    induction l with
    | nil => intro f as; rfl
    | cons s l ih => intro f as; simp only [List.flatMap_cons, List.cons_append, List.nil_append, perform]; exact ih f as
  rw [List.append_assoc, List.append_assoc, skip]
  simp only [List.cons_append, List.nil_append, perform]
  rw [skip]
  rfl

theorem perform_spawnU (env : List IfOutcome) : ∀ (f : Flat) (as : List Act), f.Ok →
    ∃ f', perform f (env.map .spawnU ++ as) = perform f' as ∧ f'.Ok ∧ f'.m = f.m ∧ f'.m.map f'.server = f.m.map f.server ∧
      f'.u.map f'.server = env.foldl (fun acc e => if !unicastBind e then acc else acc ++ [Server.started e.addr])
        (f.u.map f.server) := by
  induction env with
  | nil => intro f as h; exact ⟨f, rfl, h, rfl, rfl, rfl⟩
  | cons e env ih =>
    intro f as h
    simp only [List.map_cons, List.cons_append, perform, List.foldl_cons]
    cases hb : unicastBind e with
    | false => simpa using ih f as h
    | true =>
      let f1 : Flat := { f with all := f.all ++ [(e.addr, [])], u := f.u ++ [f.all.length] }
      have hold : ∀ s, s ∈ f.u ++ f.m → f1.server s = f.server s := by
        intro s hs
        have := h.2 s hs
        simp [Flat.server, f1, List.getD_eq_getElem?_getD, List.getElem?_append_left this]
      have hnew : f1.server f.all.length = Server.started e.addr := by
        simp [Flat.server, f1, Server.started, List.getD_eq_getElem?_getD]
      have h1 : f1.Ok := by
        refine ⟨?_, ?_⟩
        · have hn := h.1
          simp only [f1, List.nodup_append, List.mem_append, List.mem_singleton] at hn ⊢
          refine ⟨⟨hn.1, by simp, ?_⟩, hn.2.1, ?_⟩
          · rintro a ha b rfl
            have := h.2 a (by simp [ha]); omega
          · rintro a (ha | rfl) b hb
            · exact hn.2.2 a ha b hb
            · have := h.2 b (by simp [hb]); omega
        · intro s hs
          simp only [f1, List.mem_append, List.mem_singleton, List.length_append, List.length_singleton] at hs ⊢
          rcases hs with (hs | rfl) | hs
          · have := h.2 s (by simp [hs]); omega
          · omega
          · have := h.2 s (by simp [hs]); omega
      obtain ⟨f', g1, g2, g3, g4, g5⟩ := ih f1 as h1
      refine ⟨f', g1, g2, g3, g4.trans ?_, g5.trans ?_⟩
      · apply List.map_congr_left
        intro s hs
        exact hold s (by simp [show s ∈ f.m from hs])
      · congr 1
        simp only [f1, List.map_append, List.map_cons, List.map_nil, Bool.not_true, Bool.false_eq_true, if_false]
        congr 1
        · apply List.map_congr_left
          intro s hs
          exact hold s (by simp [hs])
        · exact congrArg (fun x => [x]) hnew

theorem perform_spawnM (env : List IfOutcome) : ∀ (f : Flat) (as : List Act), f.Ok →
    (startMulticastLoop env (f.m.map f.server) = .panic ∧ perform f (env.map .spawnM ++ as) = .panic) ∨
    ∃ f', perform f (env.map .spawnM ++ as) = perform f' as ∧ f'.Ok ∧ f'.u = f.u ∧ f'.u.map f'.server = f.u.map f.server ∧
      startMulticastLoop env (f.m.map f.server) = .ok (f'.m.map f'.server) := by
  induction env with
  | nil => intro f as h; exact Or.inr ⟨f, rfl, h, rfl, rfl, rfl⟩
  | cons e env ih =>
    intro f as h
    simp only [List.map_cons, List.cons_append, perform, startMulticastLoop]
    cases hb : multicastBind e with
    | panic => exact Or.inl ⟨rfl, rfl⟩
    | ok b =>
      cases b with
      | false => simpa using ih f as h
      | true =>
        let f1 : Flat := { f with all := f.all ++ [(e.addr, [])], m := f.m ++ [f.all.length] }
        have hold : ∀ s, s ∈ f.u ++ f.m → f1.server s = f.server s := by
          intro s hs
          have := h.2 s hs
          simp [Flat.server, f1, List.getD_eq_getElem?_getD, List.getElem?_append_left this]
        have hnew : f1.server f.all.length = Server.started e.addr := by
          simp [Flat.server, f1, Server.started, List.getD_eq_getElem?_getD]
        have h1 : f1.Ok := by
          refine ⟨?_, ?_⟩
          · have hn := h.1
            simp only [f1, List.nodup_append, List.mem_append, List.mem_singleton] at hn ⊢
            refine ⟨hn.1, ⟨hn.2.1, by simp, ?_⟩, ?_⟩
            · rintro a ha b rfl
              have := h.2 a (by simp [ha]); omega
            · rintro a ha b (hb | rfl)
              · exact hn.2.2 a ha b hb
              · have := h.2 a (by simp [ha]); omega
          · intro s hs
            simp only [f1, List.mem_append, List.mem_singleton, List.length_append, List.length_singleton] at hs ⊢
            rcases hs with hs | hs | rfl
            · have := h.2 s (by simp [hs]); omega
            · have := h.2 s (by simp [hs]); omega
            · omega
        have hm : f1.m.map f1.server = f.m.map f.server ++ [Server.started e.addr] := by
          simp only [f1, List.map_append, List.map_cons, List.map_nil]
          congr 1
          · apply List.map_congr_left
            intro s hs
            exact hold s (by simp [hs])
          · exact congrArg (fun x => [x]) hnew
        have hu : f1.u.map f1.server = f.u.map f.server := by
          apply List.map_congr_left
          intro s hs
          exact hold s (by simp [show s ∈ f.u from hs])
        simp only [Res.bind_ok, Bool.not_true, Bool.false_eq_true, if_false]
        rw [← hm, ← hu]
        exact ih f1 as h1

theorem perform_observe (o : ObserverRef) : ∀ (l : List Nat) (f : Flat) (as : List Act), l.Nodup → (∀ s ∈ l, s < f.all.length) →
    ∃ f', perform f (l.map (fun s => .observe s o) ++ as) = perform f' as ∧ f'.u = f.u ∧ f'.m = f.m ∧
      f'.all.length = f.all.length ∧ (∀ s ∈ l, f'.server s = (f.server s).addObserver o) ∧ ∀ s, s ∉ l → f'.server s = f.server s := by
  intro l
  induction l with
  | nil => intro f as _ _; exact ⟨f, rfl, rfl, rfl, rfl, by simp, fun _ _ => rfl⟩
  | cons s l ih =>
    intro f as hn hl
    simp only [List.map_cons, List.cons_append, perform]
    let f1 : Flat := { f with all := f.all.modify s (fun d => (d.1, d.2 ++ [o])) }
    have hlen : f1.all.length = f.all.length := by simp [f1]
    have h1 : f1.server s = (f.server s).addObserver o := by
      have := hl s (by simp)
      simp only [Flat.server, f1, Server.addObserver, List.getD_eq_getElem?_getD, List.getElem?_modify]
      rw [List.getElem?_eq_getElem this]
      simp
    have h2 : ∀ t, t ≠ s → f1.server t = f.server t := by
      intro t ht
      simp [Flat.server, f1, List.getD_eq_getElem?_getD, List.getElem?_modify, show ¬ s = t from fun h => ht h.symm]
    rw [List.nodup_cons] at hn
    obtain ⟨f', g1, g2, g3, g4, g5, g6⟩ := ih f1 as hn.2 (fun t ht => by rw [hlen]; exact hl t (by simp [ht]))
    refine ⟨f', g1, g2, g3, g4.trans hlen, ?_, ?_⟩
    · intro t ht
      rcases List.mem_cons.mp ht with rfl | ht
      · rw [g6 _ hn.1, h1]
      · rw [g5 t ht, h2 t (fun e => hn.1 (e ▸ ht))]
    · intro t ht
      simp only [List.mem_cons, not_or] at ht
      rw [g6 t ht.2, h2 t ht.1]

theorem stopServers_running (l : List Server) (h : ∀ s ∈ l, s.thread = .running) : stopServers l = .ok true := by
  induction l with
  | nil => rfl
  | cons s l ih =>
    have hs := h s (by simp)
    simp [stopServers, Server.stop, hs, ih (fun t ht => h t (by simp [ht]))]

theorem Flat.stop (f : Flat) (u m : List Nat) : (⟨u.map f.server, m.map f.server⟩ : Manager).stop = .ok (true, Manager.new) := by
  have key : ∀ l : List Nat, stopServers (l.map f.server) = .ok true := by
    intro l
    apply stopServers_running
    intro s hs
    obtain ⟨i, _, rfl⟩ := List.mem_map.mp hs
    rfl
  simp [Manager.stop, key, Manager.new]

/-- A whole call, done at once, is the call of `Model/Transport`. -/
theorem perform_call (σ : St) (h : σ.flat.Ok) (op : MOp) :
    (callOn σ.flat.manager op = .panic ∧ perform σ.flat (σ.actsOf op) = .panic) ∨
    ∃ r f', perform σ.flat (σ.actsOf op) = .ok (r, f') ∧ callOn σ.flat.manager op = .ok (r, f'.manager) := by
  have empty : ∀ (l : List Nat) (g : Nat → Server), (l.map g).isEmpty = l.isEmpty := by
    intro l g; cases l <;> rfl
  cases op with
  | stop =>
    refine Or.inr ⟨true, _, perform_stop _ _ _ true, ?_⟩
    exact Flat.stop _ _ _
  | addObserver o =>
    right
    obtain ⟨f', g1, g2, g3, _, g5, _⟩ := perform_observe o (σ.ucast ++ σ.mcast) σ.flat [.ret true] h.1 h.2
    refine ⟨true, f', ?_, ?_⟩
    · rw [St.actsOf, g1, perform]
    · simp only [callOn, Manager.addObserver, Flat.manager, List.map_map, g2, g3]
      congr 3
      · apply List.map_congr_left
        intro s hs
        exact (g5 s (by simp [show s ∈ σ.ucast from hs])).symm
      · apply List.map_congr_left
        intro s hs
        exact (g5 s (by simp [show s ∈ σ.mcast from hs])).symm
  | start menv uenv =>
    simp only [callOn, Manager.start, Manager.isRunning, Flat.manager, empty, St.actsOf]
    cases hm : σ.flat.m.isEmpty with
    | false =>
      have hm' : σ.mcast.isEmpty = false := hm
      cases hu : σ.flat.u.isEmpty with
      | false =>
        have hu' : σ.ucast.isEmpty = false := hu
        right
        refine ⟨true, σ.flat, by simp [hm', hu', perform], by simp⟩
      | true =>
        have hu' : σ.ucast.isEmpty = true := hu
        right
        obtain ⟨f', g1, _, g3, g4, g5⟩ := perform_spawnU uenv σ.flat [.readyU, .ret true] h
        have hm2 : f'.m.isEmpty = false := by rw [g3]; exact hm
        simp only [hm', hu', Bool.not_false, Bool.not_true, Bool.and_false, Bool.false_eq_true, if_false, if_true,
          List.nil_append, List.cons_append, perform, hm, startMulticast, empty, Res.bind_ok, startUnicast, hu, ← g5, ← g4, g1,
          hm2]
        cases hf : f'.u.isEmpty with
        | false => exact ⟨true, f', by simp, by simp [hf]⟩
        | true =>
          refine ⟨false, { f' with u := [], m := [] }, by simp, ?_⟩
          simp only [Bool.not_true, Bool.not_false, if_true]
          rw [Flat.stop]
          rfl
    | true =>
      have hm' : σ.mcast.isEmpty = true := hm
      simp only [hm', Bool.not_true, Bool.false_and, Bool.false_eq_true, if_false, if_true, startMulticast, empty, hm]
      rw [List.append_assoc, List.append_assoc]
      rcases perform_spawnM menv σ.flat _ h with ⟨g1, g2⟩ | ⟨f1, g1, g2, g3, g4, g5⟩
      · left
        rw [g1]
        exact ⟨rfl, g2⟩
      · right
        rw [g5]
        simp only [Res.bind_ok, Res.pure_eq, empty]
        rw [g1]
        simp only [List.cons_append, List.nil_append, perform]
        cases hf : f1.m.isEmpty with
        | true =>
          refine ⟨false, _, by rw [if_pos rfl], ?_⟩
          simp only [Bool.not_true, Bool.not_false, if_true]
          rw [← g4, Flat.stop]
          rfl
        | false =>
          simp only [Bool.false_eq_true, if_false, Bool.not_false, Bool.not_true]
          cases hu : σ.flat.u.isEmpty with
          | false =>
            have hu' : σ.ucast.isEmpty = false := hu
            have hu1 : f1.u.isEmpty = false := by rw [g3]; exact hu
            simp only [hu', startUnicast, empty, hu, Bool.not_false, if_true, Bool.false_eq_true, if_false, Bool.not_true,
              List.nil_append, perform, hu1]
            refine ⟨true, f1, rfl, ?_⟩
            rw [← g4]
          | true =>
            have hu' : σ.ucast.isEmpty = true := hu
            obtain ⟨f', k1, _, k3, k4, k5⟩ := perform_spawnU uenv f1 [.readyU, .ret true] g2
            have hu1 : f1.u.isEmpty = true := by rw [g3]; exact hu
            simp only [hu', startUnicast, empty, hu, Bool.not_true, Bool.false_eq_true, if_false, if_true, ← g4, ← k5, ← k4, k1,
              perform, hu1]
            cases hf' : f'.u.isEmpty with
            | false => exact ⟨true, f', by simp, by simp⟩
            | true =>
              refine ⟨false, { f' with u := [], m := [] }, by simp, ?_⟩
              simp only [Bool.not_true, Bool.not_false, if_true]
              rw [Flat.stop]
              rfl

/-- The invariant behind C90. -/
structure SeqInv (tr : List Ev) (σ : St) : Prop where
  ok : σ.flat.Ok
  idle : σ.caller = none → begun tr = (ended tr).map (·.1) ∧
    callsOnManager .new ((ended tr).map (·.1)) = .ok ((ended tr).map (·.2), σ.flat.manager)
  busy : ∀ op acts, σ.caller = some ⟨op, acts⟩ → begun tr = (ended tr).map (·.1) ++ [op] ∧
    ∃ m, callsOnManager .new ((ended tr).map (·.1)) = .ok ((ended tr).map (·.2), m) ∧
      ((callOn m op = .panic ∧ perform σ.flat acts = .panic) ∨
        ∃ r f', perform σ.flat acts = .ok (r, f') ∧ callOn m op = .ok (r, f'.manager))

theorem callsOnManager_append (m : Manager) (ops ops' : List MOp) :
    callsOnManager m (ops ++ ops') =
      (callsOnManager m ops >>= fun r => callsOnManager r.2 ops' >>= fun r' => .ok (r.1 ++ r'.1, r'.2)) := by
  induction ops generalizing m with
  | nil =>
    simp only [List.nil_append, callsOnManager, Res.bind_ok]
    cases callsOnManager m ops' <;> simp
  | cons op ops ih =>
    simp only [List.cons_append, callsOnManager]
    cases callOn m op with
    | panic => rfl
    | ok r =>
      simp only [Res.bind_ok, ih]
      cases callsOnManager r.2 ops with
      | panic => rfl
      | ok r1 =>
        simp only [Res.bind_ok, Res.pure_eq]
        cases callsOnManager r1.2 ops' <;> simp

theorem begun_append (a b : List Ev) : begun (a ++ b) = begun a ++ begun b := by simp [begun]
theorem ended_append (a b : List Ev) : ended (a ++ b) = ended a ++ ended b := by simp [ended]

/-- A step of the caller that does not end the call. -/
theorem SeqInv.on {tr : List Ev} {σ σ' : St} {op : MOp} {a : Act} {as as' : List Act} (inv : SeqInv tr σ)
    (hc : σ.caller = some ⟨op, a :: as⟩) (hc' : σ'.caller = some ⟨op, as'⟩) (ok : σ'.flat.Ok)
    (hp : perform σ'.flat as' = perform σ.flat (a :: as)) : SeqInv (tr ++ []) σ' := by
  obtain ⟨h1, m, h2, h3⟩ := inv.busy _ _ hc
  rw [List.append_nil]
  refine ⟨ok, fun h => by simp [hc'] at h, ?_⟩
  intro op' acts h
  rw [hc'] at h
  simp only [Option.some.injEq, Job.mk.injEq] at h
  obtain ⟨rfl, rfl⟩ := h
  rw [hp]
  exact ⟨h1, m, h2, h3⟩

theorem Flat.Ok.sub {f f' : Flat} (h : f.Ok) (hs : (f'.u ++ f'.m).Sublist (f.u ++ f.m)) (hl : f.all.length ≤ f'.all.length) :
    f'.Ok := ⟨hs.nodup h.1, fun s hm => Nat.lt_of_lt_of_le (h.2 s (hs.subset hm)) hl⟩

theorem SeqInv.step {tr evs : List Ev} {σ σ' : St} {w : Who} (inv : SeqInv tr σ) (hs : Step σ w evs σ')
    (hn : ∀ op, Ev.crashed op ∉ evs) : SeqInv (tr ++ evs) σ' := by
  have ok := inv.ok
  cases hs with
  | thread s v v' _ hv hr =>
    have hf : ({ σ with srvs := σ.srvs.set s v' } : St).flat = σ.flat := by
      simp only [St.flat, map_set_same _ _ _ _ hv (recv_desc hr)]
    have hb : begun evs = [] ∧ ended evs = [] := by cases hr <;> exact ⟨rfl, rfl⟩
    refine ⟨hf ▸ ok, fun hc => ?_, fun op acts hc => ?_⟩
    · rw [begun_append, ended_append, hb.1, hb.2, hf]
      simpa using inv.idle hc
    · rw [begun_append, ended_append, hb.1, hb.2, hf]
      simpa using inv.busy op acts hc
  | invoke op hc =>
    obtain ⟨h1, h2⟩ := inv.idle hc
    have hb : begun [Ev.invoked op] = [op] ∧ ended [Ev.invoked op] = [] := ⟨rfl, rfl⟩
    refine ⟨ok, fun h => by simp at h, ?_⟩
    intro op' acts h
    simp only [Option.some.injEq, Job.mk.injEq] at h
    obtain ⟨rfl, rfl⟩ := h
    rw [begun_append, ended_append, hb.1, hb.2, List.append_nil]
    exact ⟨by rw [h1], _, h2, perform_call σ ok op⟩
  | caller op a as _ _ hc hd =>
    cases hd with
    | spawnM e h =>
      have hf : ({ σ with srvs := σ.srvs ++ [Srv.spawned e.addr], mcast := σ.mcast ++ [σ.srvs.length], caller := some ⟨op, as⟩ } : St).flat =
          { σ.flat with all := σ.flat.all ++ [(e.addr, [])], m := σ.flat.m ++ [σ.flat.all.length] } := by
        simp [St.flat, Srv.desc, Srv.spawned]
      refine inv.on hc rfl ?_ (by rw [hf, perform, h])
      rw [hf]
      refine ⟨?_, ?_⟩
      · rw [← List.append_assoc, List.nodup_append]
        refine ⟨ok.1, by simp, ?_⟩
        rintro a ha b hb rfl
        simp only [List.mem_singleton] at hb
        have := ok.2 a ha
        omega
      · intro s hs
        simp only [← List.append_assoc] at hs
        simp only [List.length_append, List.length_singleton]
        rw [List.mem_append] at hs
        rcases hs with hs | hs
        · have := ok.2 s hs; omega
        · simp only [List.mem_singleton] at hs; omega
    | skipM e h => exact inv.on hc rfl ok (by rw [perform, h]; rfl)
    | crashM e h => exact absurd (by simp) (hn op)
    | readyM h => exact inv.on hc rfl ok (by rw [perform, if_neg (by rw [show σ.flat.m.isEmpty = false from h]; simp)]; rfl)
    | failM h =>
      refine inv.on hc rfl ok ?_
      rw [perform, if_pos (show σ.flat.m.isEmpty = true from h), St.stopActs]
      exact perform_stop _ _ _ false
    | spawnU e h =>
      have hf : ({ σ with srvs := σ.srvs ++ [Srv.spawned e.addr], ucast := σ.ucast ++ [σ.srvs.length], caller := some ⟨op, as⟩ } : St).flat =
          { σ.flat with all := σ.flat.all ++ [(e.addr, [])], u := σ.flat.u ++ [σ.flat.all.length] } := by
        simp [St.flat, Srv.desc, Srv.spawned]
      refine inv.on hc rfl ?_ (by rw [hf, perform, if_pos h])
      rw [hf]
      have hp : ∀ {x : List Nat}, (σ.flat.u ++ [σ.flat.all.length] ++ σ.flat.m).Perm (σ.flat.all.length :: (σ.flat.u ++ σ.flat.m)) := by
        intro _
        rw [List.append_assoc]
        exact List.perm_middle
      refine ⟨(hp (x := [])).nodup_iff.mpr (List.nodup_cons.mpr ⟨fun hm => by have := ok.2 _ hm; omega, ok.1⟩), ?_⟩
      intro s hs
      have hs := (hp (x := [])).mem_iff.mp hs
      simp only [List.length_append, List.length_singleton]
      rcases List.mem_cons.mp hs with rfl | hs
      · omega
      · have := ok.2 s hs; omega
    | skipU e h => exact inv.on hc rfl ok (by rw [perform, if_neg (by simp [h])]; rfl)
    | readyU h => exact inv.on hc rfl ok (by rw [perform, if_neg (by rw [show σ.flat.u.isEmpty = false from h]; simp)]; rfl)
    | failU h =>
      refine inv.on hc rfl ok ?_
      rw [perform, if_pos (show σ.flat.u.isEmpty = true from h), St.stopActs]
      exact perform_stop _ _ _ false
    | flag s =>
      have hf : ({ σ.modify s (fun v => { v with stop := true }) with caller := some ⟨op, as⟩ } : St).flat = σ.flat := by
        simp only [St.flat, St.modify, map_modify_same _ _ (fun v : Srv => { v with stop := true }) (fun _ => rfl)]
      exact inv.on hc rfl (hf ▸ ok) (by rw [hf, perform])
    | joined s v hv hh hp =>
      have hf : ({ σ.modify s (fun v => { v with handle := false }) with caller := some ⟨op, as⟩ } : St).flat = σ.flat := by
        simp only [St.flat, St.modify, map_modify_same _ _ (fun v : Srv => { v with handle := false }) (fun _ => rfl)]
      exact inv.on hc rfl (hf ▸ ok) (by rw [hf, perform])
    | joinCrash s v hv hh hp => exact absurd (by simp) (hn op)
    | noHandle s v hv hh => exact inv.on hc rfl ok (by rw [perform]; rfl)
    | clearU =>
      refine inv.on hc rfl (ok.sub ?_ (Nat.le_refl _)) (by rw [perform]; rfl)
      exact List.sublist_append_right _ _
    | clearM =>
      refine inv.on hc rfl (ok.sub ?_ (Nat.le_refl _)) (by rw [perform]; rfl)
      exact List.Sublist.append (List.Sublist.refl _) (List.nil_sublist _)
    | observe s o v hv h1 h2 =>
      have hf : ({ σ.modify s (fun v => { v with observers := v.observers ++ [o] }) with caller := some ⟨op, as⟩ } : St).flat =
          { σ.flat with all := σ.flat.all.modify s (fun d => (d.1, d.2 ++ [o])) } := by
        simp only [St.flat, St.modify]
        rw [map_modify_desc _ _ _ (fun d => (d.1, d.2 ++ [o])) (fun _ => rfl)]
      refine inv.on hc rfl ?_ (by rw [hf, perform])
      rw [hf]
      exact ok.sub (List.Sublist.refl _) (by simp)
    | observeCrash s o v hv h1 h2 => exact absurd (by simp) (hn op)
    | ret r =>
      obtain ⟨h1, m, h2, h3⟩ := inv.busy _ _ hc
      have hb : begun [Ev.returned op r] = [] ∧ ended [Ev.returned op r] = [(op, r)] := ⟨rfl, rfl⟩
      refine ⟨ok, fun _ => ?_, fun _ _ h => by simp at h⟩
      rw [begun_append, ended_append, hb.1, hb.2]
      simp only [List.append_nil, List.map_append, List.map_cons, List.map_nil]
      refine ⟨h1, ?_⟩
      rcases h3 with ⟨_, h4⟩ | ⟨r', f', h4, h5⟩
      · simp [perform] at h4
      · simp only [perform, Res.ok.injEq, Prod.mk.injEq] at h4
        obtain ⟨rfl, rfl⟩ := h4
        rw [callsOnManager_append, h2]
        simp only [Res.bind_ok, callsOnManager, h5, Res.pure_eq]
        rfl

theorem runs_seq {tr : List Ev} {σ : St} (h : Runs tr σ) (hn : ∀ op, Ev.crashed op ∉ tr) : SeqInv tr σ := by
  induction h with
  | new => exact ⟨⟨by simp [St.flat, St.new], by simp [St.flat, St.new]⟩, fun _ => ⟨rfl, rfl⟩, fun _ _ h => by simp [St.new] at h⟩
  | step h hs ih =>
    exact (ih (fun op hm => hn op (by simp [hm]))).step hs (fun op hm => hn op (by simp [hm]))

/-- C90: as long as no call has panicked, whatever the receiver threads did in between and whatever they received: the
calls on a transport manager have, one after the other, the results they have on a manager whose calls are single steps,
and between calls it has the same sockets, with the same observers. -/
theorem C90_sequential (tr : List Ev) (σ : St) (h : Runs tr σ) (hn : ∀ op, Ev.crashed op ∉ tr) (hc : σ.caller = none) :
    begun tr = (ended tr).map (·.1) ∧
    ∃ m, callsOnManager .new (begun tr) = .ok ((ended tr).map (·.2), m) ∧
      liveSockets σ σ.ucast = sockets m.ucast ∧ liveSockets σ σ.mcast = sockets m.mcast := by
  have inv := runs_seq h hn
  obtain ⟨h1, h2⟩ := inv.idle hc
  have key : ∀ l : List Nat, (∀ s ∈ l, s < σ.srvs.length) → liveSockets σ l = sockets (l.map σ.flat.server) := by
    intro l hl
    induction l with
    | nil => rfl
    | cons s l ih =>
      have hs := hl s (by simp)
      have := ih (fun t ht => hl t (by simp [ht]))
      simp only [liveSockets, sockets, List.map_map] at this
      simp only [liveSockets, sockets, List.filterMap_cons, List.map_cons, List.getElem?_eq_getElem hs, Option.map_some,
        List.map_map, this]
      simp [Flat.server, St.flat, List.getD_eq_getElem?_getD, List.getElem?_eq_getElem hs, Srv.desc]
  have hlt : ∀ s ∈ σ.ucast ++ σ.mcast, s < σ.srvs.length := by
    intro s hs
    have := inv.ok.2 s hs
    simpa [St.flat] using this
  refine ⟨h1, _, by rw [h1]; exact h2, key σ.ucast (fun s hs => hlt s (by simp [hs])),
    key σ.mcast (fun s hs => hlt s (by simp [hs]))⟩

/-- C90: so results and sockets are a function of the calls (and of what the operating system answered): two executions
with the same calls have the same results and end with the same sockets. -/
theorem C90_schedule_free (tr tr' : List Ev) (σ σ' : St) (h : Runs tr σ) (h' : Runs tr' σ')
    (hn : ∀ op, Ev.crashed op ∉ tr) (hn' : ∀ op, Ev.crashed op ∉ tr') (hc : σ.caller = none) (hc' : σ'.caller = none)
    (hb : begun tr = begun tr') :
    ended tr = ended tr' ∧ liveSockets σ σ.ucast = liveSockets σ' σ'.ucast ∧
      liveSockets σ σ.mcast = liveSockets σ' σ'.mcast := by
  obtain ⟨h1, m, h2, h3, h4⟩ := C90_sequential tr σ h hn hc
  obtain ⟨k1, m', k2, k3, k4⟩ := C90_sequential tr' σ' h' hn' hc'
  rw [hb, k2] at h2
  simp only [Res.ok.injEq, Prod.mk.injEq] at h2
  obtain ⟨e1, rfl⟩ := h2
  have e2 : (ended tr).map (·.1) = (ended tr').map (·.1) := by rw [← h1, ← k1, hb]
  refine ⟨?_, by rw [h3, k3], by rw [h4, k4]⟩
  have hz : ∀ l : List (MOp × Bool), List.zip (l.map (·.1)) (l.map (·.2)) = l := by
    intro l; induction l with
    | nil => rfl
    | cons x l ih => simp [ih]
  rw [← hz (ended tr), ← hz (ended tr'), e2, e1]

/-- A server whose notifier is poisoned has lost its thread; the multicast sockets a call has yet to open are those of
the interfaces it was told of. -/
structure CrashInv (σ : St) : Prop where
  poisoned : ∀ (s : Nat) v, σ.srvs[s]? = some v → v.poisoned = true → v.pc = .panicked
  spawn : ∀ op acts, σ.caller = some ⟨op, acts⟩ → ∀ e, Act.spawnM e ∈ acts → ∃ menv uenv, op = .start menv uenv ∧ e ∈ menv

theorem stopActs_spawn (σ : St) (r : Bool) (e : IfOutcome) : Act.spawnM e ∉ σ.stopActs r := by
  simp [St.stopActs]

theorem CrashInv.step {σ σ' : St} {w : Who} {evs : List Ev} (inv : CrashInv σ) (hs : Step σ w evs σ') : CrashInv σ' := by
  have app : ∀ (ip : IpAddr) (s : Nat) (v : Srv), (σ.srvs ++ [Srv.spawned ip])[s]? = some v → v.poisoned = true → v.pc = .panicked := by
    intro ip s v hv hp
    rw [List.getElem?_append] at hv
    split at hv
    · exact inv.poisoned s v hv hp
    · have := (List.getElem?_eq_some_iff.mp hv).2
      have hm := List.mem_of_getElem? hv
      simp only [List.mem_singleton] at hm
      subst hm
      simp [Srv.spawned] at hp
  have md : ∀ (t : Nat) (f : Srv → Srv), (∀ v, (f v).pc = v.pc ∧ (f v).poisoned = v.poisoned) → ∀ (s : Nat) v,
      (σ.modify t f).srvs[s]? = some v → v.poisoned = true → v.pc = .panicked := by
    intro t f hf s v hv hp
    simp only [St.modify, List.getElem?_modify] at hv
    cases hu : σ.srvs[s]? with
    | none => simp [hu] at hv
    | some u =>
      simp only [hu, Option.map_eq_map, Option.map_some, Option.some.injEq] at hv
      subst hv
      by_cases ht : t = s
      · rw [if_pos ht] at hp ⊢; rw [(hf u).2] at hp; rw [(hf u).1]; exact inv.poisoned s u hu hp
      · rw [if_neg ht] at hp ⊢; exact inv.poisoned s u hu hp
  cases hs with
  | thread t v v' _ hv hr =>
    refine ⟨?_, inv.spawn⟩
    intro s u hu hp
    rw [List.getElem?_set] at hu
    split at hu
    · split at hu
      · simp only [Option.some.injEq] at hu
        subst hu
        have old := inv.poisoned t v hv
        cases hr with
        | die => rfl
        | got e hpc =>
          simp only [Srv.received] at hp ⊢
          split at hp
          · exact absurd (old hp) (by rw [hpc]; simp)
          · exact absurd (old hp) (by rw [hpc]; simp)
          · exact absurd (old hp) (by rw [hpc]; simp)
          · rfl
        | lockPoisoned => rfl
        | exit hpc _ => exact absurd (old hp) (by rw [hpc]; simp)
        | wait hpc _ => exact absurd (old hp) (by rw [hpc]; simp)
        | lock m hpc _ => exact absurd (old hp) (by rw [hpc]; simp)
        | call m o os hpc => exact absurd (old hp) (by rw [hpc]; simp)
        | next m hpc => exact absurd (old hp) (by rw [hpc]; simp)
      · simp at hu
    · exact inv.poisoned s u hu hp
  | invoke op hc =>
    refine ⟨inv.poisoned, ?_⟩
    intro op' acts h e he
    simp only [Option.some.injEq, Job.mk.injEq] at h
    obtain ⟨rfl, rfl⟩ := h
    cases op with
    | stop => exact absurd he (stopActs_spawn σ true e)
    | addObserver o => simp [St.actsOf] at he
    | start menv uenv =>
      refine ⟨menv, uenv, rfl, ?_⟩
      simp only [St.actsOf] at he
      split at he
      · simp at he
      · simp only [List.mem_append, List.mem_cons, List.not_mem_nil, or_false, reduceCtorEq] at he
        rcases he with he | he
        · split at he
          · simpa using he
          · simp at he
        · split at he <;> simp at he
  | caller op a as _ _ hc hd =>
    have next : ∀ op' acts, some (⟨op, as⟩ : Job) = some ⟨op', acts⟩ → ∀ e, Act.spawnM e ∈ acts →
        ∃ menv uenv, op' = .start menv uenv ∧ e ∈ menv := by
      intro op' acts h e he
      simp only [Option.some.injEq, Job.mk.injEq] at h
      obtain ⟨rfl, rfl⟩ := h
      exact inv.spawn _ _ hc e (by simp [he])
    have fail : ∀ op' acts, some (⟨op, σ.stopActs false⟩ : Job) = some ⟨op', acts⟩ → ∀ e, Act.spawnM e ∈ acts →
        ∃ menv uenv, op' = .start menv uenv ∧ e ∈ menv := by
      intro op' acts h e he
      simp only [Option.some.injEq, Job.mk.injEq] at h
      obtain ⟨rfl, rfl⟩ := h
      exact absurd he (stopActs_spawn σ false e)
    cases hd with
    | spawnM e h => exact ⟨app e.addr, next⟩
    | spawnU e h => exact ⟨app e.addr, next⟩
    | failM h => exact ⟨inv.poisoned, fail⟩
    | failU h => exact ⟨inv.poisoned, fail⟩
    | crashM e h => exact ⟨inv.poisoned, fun _ _ h => by simp at h⟩
    | observeCrash => exact ⟨inv.poisoned, fun _ _ h => by simp at h⟩
    | ret r => exact ⟨inv.poisoned, fun _ _ h => by simp at h⟩
    | flag t => exact ⟨md t (fun v => { v with stop := true }) (fun _ => ⟨rfl, rfl⟩), next⟩
    | joined t u hu hh hp => exact ⟨md t (fun v => { v with handle := false }) (fun _ => ⟨rfl, rfl⟩), next⟩
    | joinCrash t u hu hh hp =>
      exact ⟨md t (fun v => { v with handle := false }) (fun _ => ⟨rfl, rfl⟩), fun _ _ h => by simp at h⟩
    | observe t o u hu hn hp => exact ⟨md t (fun v => { v with observers := v.observers ++ [o] }) (fun _ => ⟨rfl, rfl⟩), next⟩
    | _ => exact ⟨inv.poisoned, next⟩

theorem runs_crash {tr : List Ev} {σ : St} (h : Runs tr σ) : CrashInv σ := by
  induction h with
  | new => exact ⟨fun s v h => by simp [St.new] at h, fun _ _ h => by simp [St.new] at h⟩
  | step _ hs ih => exact ih.step hs

/-- C90: a call panics only if the thread of some server has panicked before, or if it is `start` and one of the interfaces
has an IPv6 address. -/
theorem C90_crash (tr : List Ev) (σ : St) (h : Runs tr σ) (op : MOp) (hc : Ev.crashed op ∈ tr) :
    (∃ (s : Nat) (v : Srv), σ.srvs[s]? = some v ∧ v.pc = .panicked) ∨
    ∃ menv uenv e a, op = .start menv uenv ∧ e ∈ menv ∧ e.addr = .v6 a := by
  induction h with
  | new => simp at hc
  | @step tr σ σ' w evs h hs ih =>
    rcases List.mem_append.mp hc with hc | hc
    · rcases ih hc with ⟨s, v, hv, hp⟩ | h'
      · obtain ⟨v', hv', hp'⟩ := panicked_stays hs s v hv hp
        exact Or.inl ⟨s, v', hv', hp'⟩
      · exact Or.inr h'
    · cases hs with
      | thread s v v' _ hv hrec => cases hrec <;> simp at hc
      | invoke op hc => simp at hc
      | caller op a as _ _ hcal hd =>
        cases hd <;> simp at hc
        case crashM =>
          rename_i e he _
          subst hc
          right
          obtain ⟨menv, uenv, h1, h2⟩ := (runs_crash h).spawn _ _ hcal e (by simp)
          unfold multicastBind at he
          split at he
          · simp at he
          · split at he
            · simp at he
            · rename_i a ha
              exact ⟨menv, uenv, e, a, h1, h2, ha⟩
        case observeCrash =>
          rename_i s o v hv hn hp _
          exact Or.inl ⟨s, v, hv, (runs_crash h).poisoned s v hv hp⟩
        case joinCrash =>
          rename_i s v hv hh hp _
          exact Or.inl ⟨s, { v with handle := false }, by simp [St.modify, hv], hp⟩

/-- The message of `exDatagram`. -/
def exMsg : Message := match Message.parse Message.new (match exDatagram with | .datagram b _ => b | _ => []) with
  | .ok (_, m) => m.setFrom ⟨.v4 1, 3610⟩
  | .panic => Message.new

/-- C90, the exception to it that `C90_crash` leaves: after an observer has panicked, which it does holding the observers
of its server, the application can neither add observers nor stop the servers without panicking. -/
theorem C90_observer_panics : ∃ m σ tr, Runs tr σ ∧
    tr = [.invoked (.start [exIf] [exIf]), .returned (.start [exIf] [exIf]) true,
     .invoked (.addObserver (.user 7)), .returned (.addObserver (.user 7)) true,
     .received 1 exDatagram, .notify 1 m [.user 7], .called 1 (.user 7) m,
     .invoked (.addObserver (.user 8)), .crashed (.addObserver (.user 8)), .invoked .stop, .crashed .stop] := by
  have h0 := exUp
  have h1 := Runs.step h0 (.thread 1 _ _ _ rfl (.wait rfl rfl))
  have h2 := Runs.step h1 (.thread 1 _ _ _ rfl (.got exDatagram rfl))
  have h3 := Runs.step h2 (.thread 1 _ _ _ rfl (.lock _ rfl rfl))
  have h4 := Runs.step h3 (.thread 1 _ _ _ rfl (.die _ _ _ rfl))
  have h5 := Runs.step h4 (.invoke (.addObserver (.user 8)) rfl)
  have h6 := Runs.step h5 (.caller _ _ _ _ _ rfl (.observeCrash 1 (.user 8) _ rfl rfl rfl))
  have h7 := Runs.step h6 (.invoke .stop rfl)
  have h8 := Runs.step h7 (.caller _ _ _ _ _ rfl (.flag 1))
  have h9 := Runs.step h8 (.caller _ _ _ _ _ rfl (.joinCrash 1 _ rfl rfl rfl))
  exact ⟨_, _, _, h9, rfl⟩

/-- Non-vacuity: a start that opens the multicast socket but no unicast socket fails; while it closes the multicast
socket again, that receives a datagram. A second start succeeds. -/
example : ∃ σ tr, Runs tr σ ∧ σ.caller = none ∧ (∀ op, Ev.crashed op ∉ tr) ∧ liveSockets σ σ.ucast = [(exIf.addr, [])] ∧
    tr = [.invoked (.start [exIf] []), .received 0 exDatagram, .notify 0 exMsg [], .returned (.start [exIf] []) false,
      .invoked (.start [exIf] [exIf]), .returned (.start [exIf] [exIf]) true] := by
  have h1 := Runs.step Runs.new (.invoke (.start [exIf] []) rfl)
  have h2 := Runs.step h1 (.caller _ _ _ _ _ rfl (.spawnM exIf rfl))
  have h3 := Runs.step h2 (.caller _ _ _ _ _ rfl (.readyM rfl))
  have h4 := Runs.step h3 (.caller _ _ _ _ _ rfl (.failU rfl))
  have h5 := Runs.step h4 (.thread 0 _ _ _ rfl (.wait rfl rfl))
  have h6 := Runs.step h5 (.caller _ _ _ _ _ rfl .clearU)
  have h7 := Runs.step h6 (.caller _ _ _ _ _ rfl (.flag 0))
  have h8 := Runs.step h7 (.thread 0 _ _ _ rfl (.got exDatagram rfl))
  have h9 := Runs.step h8 (.thread 0 _ _ _ rfl (.lock exMsg rfl rfl))
  have h10 := Runs.step h9 (.thread 0 _ _ _ rfl (.next exMsg rfl))
  have h11 := Runs.step h10 (.thread 0 _ _ _ rfl (.exit rfl rfl))
  have h12 := Runs.step h11 (.caller _ _ _ _ _ rfl (.joined 0 _ rfl rfl rfl))
  have h13 := Runs.step h12 (.caller _ _ _ _ _ rfl .clearM)
  have h14 := Runs.step h13 (.caller _ _ _ _ _ rfl (.ret false))
  have h15 := Runs.step h14 (.invoke (.start [exIf] [exIf]) rfl)
  have h16 := Runs.step h15 (.caller _ _ _ _ _ rfl (.spawnM exIf rfl))
  have h17 := Runs.step h16 (.caller _ _ _ _ _ rfl (.readyM rfl))
  have h18 := Runs.step h17 (.caller _ _ _ _ _ rfl (.spawnU exIf rfl))
  have h19 := Runs.step h18 (.caller _ _ _ _ _ rfl (.readyU rfl))
  have h20 := Runs.step h19 (.caller _ _ _ _ _ rfl (.ret true))
  exact ⟨_, _, h20, rfl, by simp, rfl, rfl⟩

end Uecho.Live
