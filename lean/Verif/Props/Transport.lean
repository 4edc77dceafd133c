import Verif.Lemmas.Step
import Verif.Spec.Transport
import Verif.Props.Codec
/-!
# Starting, stopping, sending, receiving: C42 – C44, C46
-/
namespace Uecho
open Spec
variable {S : Type}

/-! ## C43 -/

theorem bindUdp_iff (e : IfOutcome) : bindUdp e.bindOk = true ↔ CanBind e := by
  have : bindUdp e.bindOk = (e.bindOk 0 || e.bindOk 1 || e.bindOk 2) := by
    simp only [bindUdp, List.range, List.range.loop, List.foldl]
    cases e.bindOk 0 <;> cases e.bindOk 1 <;> cases e.bindOk 2 <;> rfl
  rw [this]
  simp only [Bool.or_eq_true, CanBind]
  constructor
  · rintro ((h | h) | h)
    · exact ⟨0, by omega, h⟩
    · exact ⟨1, by omega, h⟩
    · exact ⟨2, by omega, h⟩
  · rintro ⟨k, hk, h⟩
    rcases (by omega : k = 0 ∨ k = 1 ∨ k = 2) with rfl | rfl | rfl
    · exact Or.inl (Or.inl h)
    · exact Or.inl (Or.inr h)
    · exact Or.inr h

theorem unicastBind_iff (e : IfOutcome) : unicastBind e = true ↔ CanUnicast e := by
  unfold unicastBind CanUnicast IsV4
  cases e.addr with
  | v4 a => simp only [bindUdp_iff]; simp
  | v6 a => simp

open Classical in
/-- The servers set up for a list of interfaces, in order. -/
noncomputable def Spec.serversFor (P : IfOutcome → Prop) (env : List IfOutcome) : List Server :=
  (env.filter (fun e => decide (P e))).map (fun e => ⟨e.addr, [], .running⟩)

theorem serversFor_ne_nil {P : IfOutcome → Prop} {env : List IfOutcome} :
    serversFor P env ≠ [] ↔ ∃ e ∈ env, P e := by
  unfold serversFor
  rw [Ne, List.map_eq_nil_iff, List.filter_eq_nil_iff]
  simp

theorem startUnicast_eq (env : List IfOutcome) :
    startUnicast env [] = (!(serversFor CanUnicast env).isEmpty, serversFor CanUnicast env) := by
  have key : ∀ acc : List Server, env.foldl (fun acc e =>
      if !unicastBind e then acc else acc ++ [Server.started e.addr]) acc = acc ++ serversFor CanUnicast env := by
    induction env with
    | nil => intro acc; simp [serversFor]
    | cons e env ih =>
      intro acc
      rw [List.foldl_cons, ih]
      by_cases h : CanUnicast e
      · have hb := (unicastBind_iff e).mpr h
        simp [hb, serversFor, h, Server.started]
      · have hb : unicastBind e = false := by
          cases hx : unicastBind e with
          | false => rfl
          | true => exact absurd ((unicastBind_iff e).mp hx) h
        simp [hb, serversFor, h]
  unfold startUnicast
  simp only [List.isEmpty_nil, Bool.not_true, Bool.false_eq_true, if_false, key, List.nil_append]

theorem multicastBind_v4 {e : IfOutcome} (h : IsV4 e.addr) :
    ∃ r, multicastBind e = .ok r ∧ (r = true ↔ CanMulticast e) := by
  obtain ⟨a, ha⟩ := h
  unfold multicastBind
  cases hb : bindUdp e.bindOk with
  | false =>
    refine ⟨false, by simp, ?_⟩
    simp only [Bool.false_eq_true, false_iff, CanMulticast]
    rintro ⟨_, hc, _⟩
    rw [(bindUdp_iff e).mpr hc] at hb
    simp at hb
  | true =>
    refine ⟨e.joinOk, by simp [ha], ?_⟩
    exact ⟨fun h => ⟨⟨a, ha⟩, (bindUdp_iff e).mp hb, h⟩, fun h => h.2.2⟩

theorem startMulticastLoop_eq {env : List IfOutcome} (h4 : ∀ e ∈ env, IsV4 e.addr) (acc : List Server) :
    startMulticastLoop env acc = .ok (acc ++ serversFor CanMulticast env) := by
  induction env generalizing acc with
  | nil => simp [startMulticastLoop, serversFor]
  | cons e env ih =>
    obtain ⟨r, hr, hiff⟩ := multicastBind_v4 (h4 e (by simp))
    simp only [startMulticastLoop, hr, Res.bind_ok]
    rw [ih (fun e he => h4 e (by simp [he]))]
    cases r with
    | true =>
      have := hiff.mp rfl
      simp [serversFor, this, Server.started]
    | false =>
      have : ¬ CanMulticast e := fun h => by simpa using hiff.mpr h
      simp [serversFor, this]

theorem startMulticast_eq {env : List IfOutcome} (h4 : ∀ e ∈ env, IsV4 e.addr) :
    startMulticast env [] = .ok (!(serversFor CanMulticast env).isEmpty, serversFor CanMulticast env) := by
  unfold startMulticast
  simp [startMulticastLoop_eq h4]

theorem stopServers_ok {l : List Server} (h : ∀ s ∈ l, s.thread ≠ .panicked) : stopServers l = .ok true := by
  induction l with
  | nil => rfl
  | cons s l ih =>
    have hs : s.stop = .ok true := by
      unfold Server.stop
      have := h s (by simp)
      cases ht : s.thread <;> simp_all
    simp only [stopServers, hs, Res.bind_ok, ih (fun s hs => h s (by simp [hs]))]
    rfl

theorem stopServers_panic {l : List Server} (h : ∃ s ∈ l, s.thread = .panicked) : stopServers l = .panic := by
  induction l with
  | nil => simp at h
  | cons s l ih =>
    by_cases hs : s.thread = .panicked
    · simp only [stopServers, Server.stop, hs]; rfl
    · have hok : s.stop = .ok true := by
        unfold Server.stop
        cases ht : s.thread <;> simp_all
      obtain ⟨s', hm, hp⟩ := h
      rcases List.mem_cons.mp hm with rfl | hm
      · exact absurd hp hs
      · simp only [stopServers, hok, Res.bind_ok, ih ⟨s', hm, hp⟩]
        rfl

/-- C43: stopping always leaves no server (unless a receiver thread has panicked, then stopping panics). -/
theorem C43_stop (m : Manager) :
    (ThreadsOk m → m.stop = .ok (true, ⟨[], []⟩)) ∧ (¬ ThreadsOk m → m.stop = .panic) := by
  constructor
  · intro h
    simp only [Manager.stop, stopServers_ok (fun s hs => h s (List.mem_append_left _ hs)),
      stopServers_ok (fun s hs => h s (List.mem_append_right _ hs)), Res.bind_ok]
    rfl
  · intro h
    simp only [ThreadsOk, Classical.not_forall, Classical.not_not] at h
    obtain ⟨s, hs, hp⟩ := h
    by_cases hu : ∃ s ∈ m.ucast, s.thread = .panicked
    · simp only [Manager.stop, stopServers_panic hu]; rfl
    · have hu' : ∀ s ∈ m.ucast, s.thread ≠ .panicked := fun s hs hp => hu ⟨s, hs, hp⟩
      rcases List.mem_append.mp hs with hs | hs
      · exact absurd ⟨s, hs, hp⟩ hu
      · simp only [Manager.stop, stopServers_ok hu', Res.bind_ok, stopServers_panic ⟨s, hs, hp⟩]
        rfl

theorem isRunning_iff (m : Manager) : m.isRunning = true ↔ m.ucast ≠ [] ∧ m.mcast ≠ [] := by
  unfold Manager.isRunning
  cases m.mcast <;> cases m.ucast <;> simp

theorem serversFor_threads (P : IfOutcome → Prop) (env : List IfOutcome) :
    ∀ s ∈ serversFor P env, s.thread = .running := by
  intro s hs
  unfold serversFor at hs
  obtain ⟨e, _, rfl⟩ := List.mem_map.mp hs
  rfl

/-- C43: starting a stopped manager (on interfaces with IPv4 addresses, which is all `get_all_interfaces`
returns) never panics; it succeeds iff some interface can be used for multicast and some for unicast, and
then has exactly one running server for each such interface; otherwise no server is left. -/
theorem C43_start (menv uenv : List IfOutcome) (h4 : ∀ e ∈ menv, IsV4 e.addr) :
    ∃ r m', Manager.new.start menv uenv = .ok (r, m') ∧
      (r = true ↔ (∃ e ∈ menv, CanMulticast e) ∧ ∃ e ∈ uenv, CanUnicast e) ∧
      (r = true ↔ m'.isRunning = true) ∧
      (r = true → m' = ⟨serversFor CanUnicast uenv, serversFor CanMulticast menv⟩) ∧
      (r = false → m' = ⟨[], []⟩) := by
  rw [← serversFor_ne_nil, ← serversFor_ne_nil]
  have hst : ∀ u v, (∀ s ∈ u ++ v, s.thread = ThreadState.running) →
      (⟨u, v⟩ : Manager).stop = .ok (true, ⟨[], []⟩) := by
    intro u v h
    exact (C43_stop _).1 (fun s hs => by rw [h s hs]; simp)
  unfold Manager.start
  have hnr : Manager.new.isRunning = false := rfl
  simp only [hnr, Bool.false_eq_true, if_false]
  rw [show Manager.new.mcast = [] from rfl, startMulticast_eq h4]
  simp only [Res.bind_ok]
  by_cases hm : serversFor CanMulticast menv = []
  · simp only [hm, List.isEmpty_nil, Bool.not_true, Bool.not_false, if_true]
    rw [show Manager.new.ucast = [] from rfl, hst [] [] (by simp)]
    exact ⟨false, ⟨[], []⟩, rfl, by simp, by simp [Manager.isRunning], by simp, fun _ => rfl⟩
  · have hm' : (serversFor CanMulticast menv).isEmpty = false := by simpa using hm
    simp only [hm', Bool.not_false, Bool.not_true, Bool.false_eq_true, if_false]
    rw [show Manager.new.ucast = [] from rfl, startUnicast_eq]
    by_cases hu : serversFor CanUnicast uenv = []
    · simp only [hu, List.isEmpty_nil, Bool.not_true, Bool.not_false, if_true]
      rw [hst [] _ (by simpa using serversFor_threads _ _)]
      exact ⟨false, ⟨[], []⟩, rfl, by simp, by simp [Manager.isRunning], by simp, fun _ => rfl⟩
    · have hu' : (serversFor CanUnicast uenv).isEmpty = false := by simpa using hu
      simp only [hu', Bool.not_false, Bool.not_true, Bool.false_eq_true, if_false]
      refine ⟨true, _, rfl, by simp [hm, hu], ?_, fun _ => rfl, by simp⟩
      simp [isRunning_iff, hm, hu]

theorem startUnicast_result (env : List IfOutcome) (l : List Server) :
    (startUnicast env l).1 = !(startUnicast env l).2.isEmpty := by
  unfold startUnicast
  split
  · rename_i h; simpa using h.symm
  · rfl

/-- C43: in any state, whatever the operating system answers, a successful `start` leaves both sides with at
least one server and a failed one leaves none at all; starting a running manager changes nothing. -/
theorem C43_all_or_nothing (menv uenv : List IfOutcome) (m m' : Manager) (r : Bool)
    (h : m.start menv uenv = .ok (r, m')) :
    (r = true → m'.ucast ≠ [] ∧ m'.mcast ≠ []) ∧ (r = false → m' = ⟨[], []⟩) ∧
    (m.isRunning = true → r = true ∧ m' = m) := by
  unfold Manager.start at h
  by_cases hr : m.isRunning = true
  · rw [if_pos hr] at h
    simp only [Res.ok.injEq, Prod.mk.injEq] at h
    obtain ⟨rfl, rfl⟩ := h
    exact ⟨fun _ => (isRunning_iff m).mp hr, by simp, fun _ => ⟨rfl, rfl⟩⟩
  · rw [if_neg hr] at h
    have hstop : ∀ {m : Manager} {x}, m.stop = .ok x → x.2 = ⟨[], []⟩ := by
      intro m x hx
      unfold Manager.stop at hx
      obtain ⟨_, _, hx⟩ := Res.bind_eq_ok.mp hx
      obtain ⟨_, _, hx⟩ := Res.bind_eq_ok.mp hx
      simp only [Res.pure_eq, Res.ok.injEq] at hx
      rw [← hx]
    obtain ⟨s, hs, h⟩ := Res.bind_eq_ok.mp h
    have hs1 : s.1 = true → s.2 ≠ [] := by
      intro h1 h2
      unfold startMulticast at hs
      split at hs
      · simp only [Res.ok.injEq] at hs
        rw [← hs] at h2; simp_all
      · obtain ⟨x, _, hs⟩ := Res.bind_eq_ok.mp hs
        simp only [Res.pure_eq, Res.ok.injEq] at hs
        rw [← hs] at h1 h2
        simp only [] at h1 h2
        simp [h2] at h1
    refine ⟨?_, ?_, fun h' => absurd h' hr⟩
    · intro hrt
      simp only [] at h
      split at h
      · obtain ⟨x, _, h⟩ := Res.bind_eq_ok.mp h
        simp only [Res.pure_eq, Res.ok.injEq, Prod.mk.injEq] at h
        simp [hrt] at h
      · rename_i hsn
        split at h
        · obtain ⟨x, _, h⟩ := Res.bind_eq_ok.mp h
          simp only [Res.pure_eq, Res.ok.injEq, Prod.mk.injEq] at h
          simp [hrt] at h
        · rename_i hun
          simp only [Res.pure_eq, Res.ok.injEq, Prod.mk.injEq] at h
          rw [← h.2]
          refine ⟨?_, hs1 (by simpa using hsn)⟩
          show (startUnicast uenv m.ucast).2 ≠ []
          intro he
          apply hun
          rw [startUnicast_result, he]; rfl
    · intro hrf
      simp only [] at h
      split at h
      · obtain ⟨x, hx, h⟩ := Res.bind_eq_ok.mp h
        simp only [Res.pure_eq, Res.ok.injEq, Prod.mk.injEq] at h
        rw [← h.2]; exact hstop hx
      · split at h
        · obtain ⟨x, hx, h⟩ := Res.bind_eq_ok.mp h
          simp only [Res.pure_eq, Res.ok.injEq, Prod.mk.injEq] at h
          rw [← h.2]; exact hstop hx
        · simp only [Res.pure_eq, Res.ok.injEq, Prod.mk.injEq] at h
          simp [hrf] at h

/-- Only IPv4 addresses are returned for setting up servers. -/
theorem C43_interfaces_are_v4 (ifs : List NetIf) : ∀ a ∈ getAllInterfaces ifs, IsV4 a := by
  have inner : ∀ (ips : List (IpAddr × Nat)) (acc : List IpAddr), (∀ a ∈ acc, IsV4 a) →
      ∀ a ∈ ips.foldl (fun acc ip => if isIgnoreInterface ip then acc
        else if !isV4Interface ip then acc else acc ++ [ip.1]) acc, IsV4 a := by
    intro ips
    induction ips with
    | nil => intro acc h; exact h
    | cons ip ips ih =>
      intro acc h
      apply ih
      simp only []
      split
      · exact h
      · split
        · exact h
        · rename_i hv
          intro a ha
          rcases List.mem_append.mp ha with ha | ha
          · exact h a ha
          · rw [List.mem_singleton.mp ha]
            cases hx : ip.1 with
            | v4 x => exact ⟨x, rfl⟩
            | v6 x => simp [isV4Interface, hx] at hv
  have outer : ∀ (ifs : List NetIf) (acc : List IpAddr), (∀ a ∈ acc, IsV4 a) →
      ∀ a ∈ ifs.foldl (fun acc i =>
        if !i.isUp then acc
        else if i.isLoopback || i.isPointToPoint then acc
        else if i.ips.isEmpty then acc
        else i.ips.foldl (fun acc ip =>
          if isIgnoreInterface ip then acc
          else if !isV4Interface ip then acc
          else acc ++ [ip.1]) acc) acc, IsV4 a := by
    intro ifs
    induction ifs with
    | nil => intro acc h; exact h
    | cons i ifs ih =>
      intro acc h
      apply ih
      simp only []
      split
      · exact h
      · split
        · exact h
        · split
          · exact h
          · exact inner _ _ h
  exact outer ifs [] (by simp)

/-- Two interfaces, one of which only binds at the third attempt and cannot join the multicast group. -/
example : ∃ r, Manager.new.start
      [⟨.v4 1, fun _ => true, true⟩, ⟨.v4 2, fun k => k == 2, false⟩]
      [⟨.v4 1, fun _ => true, true⟩, ⟨.v4 2, fun k => k == 2, false⟩] = .ok r ∧
    r.1 = true ∧ r.2.ucast.map (fun s => s.ifaddr) = [.v4 1, .v4 2] ∧
    r.2.mcast.map (fun s => s.ifaddr) = [.v4 1] := by
  refine ⟨_, rfl, ?_, ?_, ?_⟩ <;> decide

example : getAllInterfaces [⟨true, false, false, [(.v4 0xAC110001, 16), (.v4 0xC0A80002, 24), (.v6 7, 64)]⟩,
    ⟨true, true, false, [(.v4 0x7F000001, 8)]⟩, ⟨false, false, false, [(.v4 0xC0A80003, 24)]⟩] =
      [.v4 0xC0A80002] := by decide

/-! ## C42 -/

theorem setPropertyData_mapProperties (o : Object) (c : UInt8) (d : List UInt8) :
    (o.setPropertyData c d).2 = mapProperties (fun c' p => if c' = c then { p with data := d } else p) o := by
  have h1 := Object.setPropertyData_codes o c d
  have h2 : (o.setPropertyData c d).2.properties =
      (mapProperties (fun c' p => if c' = c then { p with data := d } else p) o).properties := by
    funext c'
    rw [Object.setPropertyData_props]
    simp only [mapProperties]
    split
    · rename_i h; subst h; rfl
    · cases o.properties c' <;> rfl
  cases hx : (o.setPropertyData c d).2 with
  | mk a b e f =>
    rw [hx] at h1 h2
    simp only [] at h1 h2
    rw [h1.1, h1.2.1, h1.2.2, h2]
    rfl

theorem started_objects (l : List Object) :
    (l.map (fun o => (o.setPropertyData 0x80 [0x30]).2)).map (fun o => (o.setPropertyData 0x88 [0x42]).2) =
      l.map (mapProperties startedProperty) := by
  rw [List.map_map]
  apply List.map_congr_left
  intro o _
  simp only [Function.comp, setPropertyData_mapProperties, mapProperties, Option.map_map]
  congr 1
  funext c
  congr 1
  funext p
  simp only [startedProperty]
  by_cases h : c = 0x80
  · subst h; simp
  · simp [h]

theorem stopped_objects (l : List Object) :
    l.map (fun o => (o.setPropertyData 0x80 [0x31]).2) = l.map (mapProperties stoppedProperty) := by
  apply List.map_congr_left
  intro o _
  rw [setPropertyData_mapProperties]
  rfl

theorem addObservers_isRunning (l : List ObserverRef) (m : Manager) :
    (l.foldl Manager.addObserver m).isRunning = m.isRunning := by
  induction l generalizing m with
  | nil => rfl
  | cons o l ih =>
    rw [List.foldl_cons, ih]
    simp only [Manager.isRunning, Manager.addObserver, List.isEmpty_map]

theorem startTransport_running {menv uenv : List IfOutcome} {m m' : Manager} {r : Bool}
    (h : Node.startTransport menv uenv m = .ok (r, m')) :
    (r = true ↔ m'.isRunning = true) ∧ (m.isRunning = true → r = true ∧ m' = m) := by
  unfold Node.startTransport at h
  cases hr : m.isRunning with
  | true =>
    simp only [hr, Bool.not_true, Bool.false_eq_true, if_false, Res.ok.injEq, Prod.mk.injEq] at h
    obtain ⟨rfl, rfl⟩ := h
    exact ⟨by simp [hr], fun _ => ⟨rfl, rfl⟩⟩
  | false =>
    simp only [hr, Bool.not_false, if_true] at h
    have := C43_all_or_nothing menv uenv m m' r h
    refine ⟨⟨fun h => (isRunning_iff _).mpr (this.1 h), fun hq => ?_⟩, by simp⟩
    cases r with
    | true => rfl
    | false => rw [this.2.1 rfl] at hq; exact absurd hq (by decide)

/-- What `Node::start` leaves behind. -/
theorem start_result {menv uenv : List IfOutcome} {ok : Nat → Bool} {n n' : Node S} {r : Bool} {outs : List Out}
    (h : n.start menv uenv ok = .ok (r, n', outs)) :
    ∃ up m, Node.startTransport menv uenv n.transport = .ok (up, m) ∧
      ((up = false ∧ r = false ∧ n' = { n with transport := m } ∧ outs = []) ∨
       (up = true ∧ ∃ n₀ : Node S,
          n₀ = { n with objects := n.objects.map (mapProperties startedProperty),
                        transport := n.observers.foldl Manager.addObserver m } ∧
          r = (n₀.announce ok).1 ∧ n' = (n₀.announce ok).2.1 ∧ outs = (n₀.announce ok).2.2)) := by
  unfold Node.start at h
  obtain ⟨s, hs, h⟩ := Res.bind_eq_ok.mp h
  refine ⟨s.1, s.2, hs, ?_⟩
  simp only [] at h
  cases hu : s.1 with
  | false =>
    left
    simp only [hu, Bool.not_false, if_true, Res.pure_eq, Res.ok.injEq, Prod.mk.injEq] at h
    exact ⟨rfl, h.1.symm, h.2.1.symm, h.2.2.symm⟩
  | true =>
    right
    refine ⟨rfl, _, rfl, ?_⟩
    simp only [hu, Bool.not_true, Bool.false_eq_true, if_false, Node.setObjectPropertiesByte, started_objects] at h
    generalize ({ n with objects := n.objects.map (mapProperties startedProperty),
                         transport := n.observers.foldl Manager.addObserver s.2 } : Node S) = n₀ at h ⊢
    cases ha : (n₀.announce ok).1 with
    | false =>
      simp only [ha, Bool.not_false, if_true, Res.pure_eq, Res.ok.injEq, Prod.mk.injEq] at h
      exact ⟨h.1.symm, h.2.1.symm, h.2.2.symm⟩
    | true =>
      simp only [ha, Bool.not_true, Bool.false_eq_true, if_false, Res.pure_eq, Res.ok.injEq, Prod.mk.injEq] at h
      exact ⟨h.1.symm, h.2.1.symm, h.2.2.symm⟩

/-- C42: after a successful `start` the node is running and every object is the old one with the data of
0x80 replaced by 0x30 and the data of 0x88 by 0x42 where these properties exist; handlers, observers, the
application state and the pending post are untouched. -/
theorem C42_start (menv uenv : List IfOutcome) (ok : Nat → Bool) (n n' : Node S) (outs : List Out)
    (h : n.start menv uenv ok = .ok (true, n', outs)) :
    n'.isRunning = true ∧ n'.objects = n.objects.map (mapProperties startedProperty) ∧
    n'.handlers = n.handlers ∧ n'.observers = n.observers ∧ n'.app = n.app ∧ n'.post = n.post := by
  obtain ⟨up, m, hm, h | ⟨hu, n₀, hn, hr, hn', _⟩⟩ := start_result h
  · simp at h
  · rw [hn', (announce_frame ok n₀).1, hn]
    refine ⟨?_, rfl, rfl, rfl, rfl, rfl⟩
    show (n.observers.foldl Manager.addObserver m).isRunning = true
    rw [addObservers_isRunning]
    exact (startTransport_running hm).1.mp hu

/-- C42: a failed `start` either left the objects alone (the transport could not be started, and the node is
not running) or is one whose announcement failed: then the objects have been set as by a successful start
and the node *is* running. -/
theorem C42_failed_start (menv uenv : List IfOutcome) (ok : Nat → Bool) (n n' : Node S) (outs : List Out)
    (h : n.start menv uenv ok = .ok (false, n', outs)) :
    (n'.isRunning = false ∧ n'.objects = n.objects ∧ outs = []) ∨
    (n'.isRunning = true ∧ n'.objects = n.objects.map (mapProperties startedProperty)) := by
  obtain ⟨up, m, hm, ⟨hu, _, hn', ho⟩ | ⟨hu, n₀, hn, hr, hn', _⟩⟩ := start_result h
  · left
    rw [hn']
    refine ⟨?_, rfl, ho⟩
    cases hx : m.isRunning with
    | false => exact hx
    | true => have := (startTransport_running hm).1.mpr hx; simp [hu] at this
  · right
    rw [hn', (announce_frame ok n₀).1, hn]
    refine ⟨?_, rfl⟩
    show (n.observers.foldl Manager.addObserver m).isRunning = true
    rw [addObservers_isRunning]
    exact (startTransport_running hm).1.mp hu

/-- C42: after `stop` the node is not running and every object is the old one with the data of 0x80 replaced
by 0x31 where it exists; `stop` returns `true` unless it panics, which it does exactly when a receiver
thread has panicked. -/
theorem C42_stop (n : Node S) :
    (ThreadsOk n.transport → n.stop = .ok (true,
      { n with objects := n.objects.map (mapProperties stoppedProperty), transport := ⟨[], []⟩ })) ∧
    (¬ ThreadsOk n.transport → n.stop = .panic) := by
  constructor
  · intro h
    unfold Node.stop
    simp only [Node.setObjectPropertiesByte, (C43_stop n.transport).1 h, Res.bind_ok, stopped_objects]
    rfl
  · intro h
    unfold Node.stop
    simp only [Node.setObjectPropertiesByte, (C43_stop n.transport).2 h]
    rfl

/-- A successful start needs the node profile with property 0xD5. -/
theorem C42_start_needs_profile (menv uenv : List IfOutcome) (ok : Nat → Bool) (n n' : Node S) (outs : List Out)
    (h : n.start menv uenv ok = .ok (true, n', outs)) :
    ∃ np p, findObject n'.objects 0x0EF001 = some np ∧ np.properties 0xD5 = some p := by
  obtain ⟨up, m, hm, h | ⟨hu, n₀, hn, hr, hn', _⟩⟩ := start_result h
  · simp at h
  · have ho : n'.objects = n₀.objects := by rw [hn', (announce_frame ok n₀).1]
    rw [ho]
    unfold Node.announce at hr
    split at hr
    · simp at hr
    · rename_i np hnp
      split at hr
      · simp at hr
      · rename_i p hp
        exact ⟨np, p, hnp, hp⟩

/-- A node with a profile (0x80, 0xD5) and a device (0x80, 0x88, 0xB0), started on one interface. -/
example : ∃ o np, exObject [0x80, 0x88, 0xB0] = .ok o ∧
    Object.addAll .dev .ascending (Object.fromCode 0x0EF001) [exProp 0x80, exProp 0xD5] = .ok np ∧
    ∃ r, (⟨Manager.new, [np, o], 5, none, 0, [acceptAll], [.node], ()⟩ : Node Unit).start
        [⟨.v4 1, fun _ => true, true⟩] [⟨.v4 1, fun _ => true, true⟩] allOk = .ok r ∧ r.1 = true ∧
      r.2.1.property 0x029001 0x80 = some [0x30] ∧ r.2.1.property 0x029001 0x88 = some [0x42] ∧
      r.2.1.property 0x0EF001 0x80 = some [0x30] ∧ (txs r.2.2).length = 1 ∧ ThreadsOk r.2.1.transport := by
  refine ⟨_, _, rfl, rfl, _, rfl, ?_⟩
  unfold ThreadsOk
  decide +kernel

/-! ## C44 -/

/-- C44: `send` tries the unicast servers in order; it returns `true` exactly when some server's `send_to`
works, and then exactly one datagram with the message's bytes went out, through the first such server; it
returns `false` exactly when all of them fail, and then nothing went out. -/
theorem C44_send (ok : Nat → Bool) (m : Manager) (to : SocketAddr) (msg : Message) :
    ((m.send ok to msg).1 = true ↔ ∃ i, i < m.ucast.length ∧ ok i = true) ∧
    (∀ i (h : i < m.ucast.length), ok i = true → (∀ j, j < i → ok j = false) →
      (m.send ok to msg).2 = [⟨m.ucast[i].ifaddr, to, msg.bytes⟩]) ∧
    ((m.send ok to msg).1 = false → (m.send ok to msg).2 = []) := by
  unfold Manager.send
  have key : ∀ (ss : List Server) (k : Nat),
      ((Manager.sendLoop ok to msg k ss).1 = true ↔ ∃ i, i < ss.length ∧ ok (k + i) = true) ∧
      (∀ i (h : i < ss.length), ok (k + i) = true → (∀ j, j < i → ok (k + j) = false) →
        (Manager.sendLoop ok to msg k ss).2 = [⟨ss[i].ifaddr, to, msg.bytes⟩]) ∧
      ((Manager.sendLoop ok to msg k ss).1 = false → (Manager.sendLoop ok to msg k ss).2 = []) := by
    intro ss
    induction ss with
    | nil => intro k; simp [Manager.sendLoop]
    | cons s ss ih =>
      intro k
      unfold Manager.sendLoop
      cases hk : ok k with
      | true =>
        simp only [if_true]
        refine ⟨⟨fun _ => ⟨0, by simp, by simpa using hk⟩, fun _ => trivial⟩, ?_, by simp⟩
        intro i hi h1 h2
        cases i with
        | zero => rfl
        | succ i => have := h2 0 (by omega); simp [hk] at this
      | false =>
        simp only [Bool.false_eq_true, if_false]
        obtain ⟨h1, h2, h3⟩ := ih (k + 1)
        refine ⟨?_, ?_, h3⟩
        · rw [h1]
          constructor
          · rintro ⟨i, hi, h⟩
            exact ⟨i + 1, by simpa using hi, by rw [← h]; congr 1; omega⟩
          · rintro ⟨i, hi, h⟩
            cases i with
            | zero => simp [hk] at h
            | succ i => exact ⟨i, by simpa using hi, by rw [← h]; congr 1; omega⟩
        · intro i hi h hj
          cases i with
          | zero => simp [hk] at h
          | succ i =>
            have := h2 i (by simpa using hi) (by rw [← h]; congr 1; omega)
              (fun j hj' => by rw [← hj (j + 1) (by omega)]; congr 1; omega)
            simpa using this
  have := key m.ucast 0
  simpa using this

/-- C44 (partial): `notify` returns `true` exactly when `send_to` works on every multicast server (also when
there is none), and then the message's bytes went out to 224.0.23.0:3610 once on every one of them, in
order; on failure it went out on those before the first failing one. Missing: with no server at all the
result should be `false`, see `C44_notify_not_running`. -/
theorem C44_notify_partial (ok : Nat → Bool) (m : Manager) (msg : Message) :
    ((m.notify ok msg).1 = true ↔ ∀ i, i < m.mcast.length → ok i = true) ∧
    ((m.notify ok msg).1 = true →
      (m.notify ok msg).2 = m.mcast.map (fun s => ⟨s.ifaddr, ⟨.v4 0xE0001700, 3610⟩, msg.bytes⟩)) ∧
    (∀ i, i < m.mcast.length → ok i = false → (∀ j, j < i → ok j = true) →
      (m.notify ok msg).2 = (m.mcast.take i).map (fun s => ⟨s.ifaddr, ⟨.v4 0xE0001700, 3610⟩, msg.bytes⟩)) := by
  unfold Manager.notify
  have key : ∀ (ss : List Server) (k : Nat),
      ((Manager.notifyLoop ok msg k ss).1 = true ↔ ∀ i, i < ss.length → ok (k + i) = true) ∧
      ((Manager.notifyLoop ok msg k ss).1 = true →
        (Manager.notifyLoop ok msg k ss).2 = ss.map (fun s => ⟨s.ifaddr, ⟨.v4 0xE0001700, 3610⟩, msg.bytes⟩)) ∧
      (∀ i, i < ss.length → ok (k + i) = false → (∀ j, j < i → ok (k + j) = true) →
        (Manager.notifyLoop ok msg k ss).2 =
          (ss.take i).map (fun s => ⟨s.ifaddr, ⟨.v4 0xE0001700, 3610⟩, msg.bytes⟩)) := by
    intro ss
    induction ss with
    | nil => intro k; simp [Manager.notifyLoop]
    | cons s ss ih =>
      intro k
      unfold Manager.notifyLoop
      cases hk : ok k with
      | false =>
        simp only [Bool.not_false, if_true]
        refine ⟨⟨by simp, fun h => ?_⟩, by simp, ?_⟩
        · have := h 0 (by simp); simp [hk] at this
        · intro i hi h1 h2
          cases i with
          | zero => rfl
          | succ i => have := h2 0 (by omega); simp [hk] at this
      | true =>
        simp only [Bool.not_true, Bool.false_eq_true, if_false]
        obtain ⟨h1, h2, h3⟩ := ih (k + 1)
        refine ⟨?_, ?_, ?_⟩
        · rw [h1]
          constructor
          · intro h i hi
            cases i with
            | zero => simpa using hk
            | succ i => rw [← h i (by simpa using hi)]; congr 1; omega
          · intro h i hi
            rw [← h (i + 1) (by simpa using hi)]; congr 1; omega
        · intro h
          rw [h2 h]; rfl
        · intro i hi h hj
          cases i with
          | zero => simp [hk] at h
          | succ i =>
            have := h3 i (by simpa using hi) (by rw [← h]; congr 1; omega)
              (fun j hj' => by rw [← hj (j + 1) (by omega)]; congr 1; omega)
            rw [this]; rfl
  have := key m.mcast 0
  simpa using this

/-- C44 fails for `notify`: on a stopped node every notification "succeeds" and nothing is sent; `send`
reports the failure. -/
theorem C44_notify_not_running (ok : Nat → Bool) (to : SocketAddr) (msg : Message) :
    (Manager.new.notify ok msg).1 = true ∧ (Manager.new.notify ok msg).2 = [] ∧
    (Manager.new.send ok to msg).1 = false := ⟨rfl, rfl, rfl⟩

/-- Two unicast servers, the first of which fails; three multicast servers, the last of which fails. -/
example : let m : Manager := ⟨[⟨.v4 1, [], .running⟩, ⟨.v4 2, [], .running⟩],
      [⟨.v4 1, [], .running⟩, ⟨.v4 2, [], .running⟩, ⟨.v4 3, [], .running⟩]⟩
    (m.send (fun i => i == 1) ⟨.v4 9, 3610⟩ Message.new).1 = true ∧
    (m.send (fun i => i == 1) ⟨.v4 9, 3610⟩ Message.new).2.map (fun t => t.iface) = [.v4 2] ∧
    (m.notify (fun i => i != 2) Message.new).1 = false ∧
    (m.notify (fun i => i != 2) Message.new).2.map (fun t => t.iface) = [.v4 1, .v4 2] := by
  decide

/-! ## C46 -/

/-- The bytes `recv_from` hands over for a datagram: at most 1024 of them. -/
def Spec.received (bytes : List UInt8) : List UInt8 := bytes.take 1024

/-- A datagram on which the decoder panics (see `C03_panic_characterisation` for which these are). -/
def Spec.Poison (bytes : List UInt8) : Prop :=
  ∃ tid seoj deoj esv s, tid < 2 ^ 16 ∧ seoj < 2 ^ 24 ∧ deoj < 2 ^ 24 ∧ isWriteReadByte esv = true ∧
    InRange s ∧ received bytes = [0x10, 0x81] ++ be 2 tid ++ be 3 seoj ++ be 3 deoj ++ [esv] ++ encList s

/-- Events after which the receive loop goes on. -/
def Spec.Harmless : SocketEvent → Prop
  | .datagram bytes _ => ¬ Poison bytes
  | .timeout => True
  | .error => False

/-- `msgs` are the messages observers must get for the socket events `es`: one for each datagram that is a
frame with arbitrary trailing bytes, in order, with the contents of the frame and the sender's address. -/
inductive Spec.Handed : List SocketEvent → List Message → Prop
  | nil : Handed [] []
  | timeout {es ms} : Handed es ms → Handed (.timeout :: es) ms
  | garbage {es ms bytes src} : (∀ f : Frame, f.Valid → ∀ t, received bytes ≠ f.encode ++ t) →
      Handed es ms → Handed (.datagram bytes src :: es) ms
  | frame {es ms bytes src} {f : Frame} {t : List UInt8} {m : Message} : f.Valid →
      received bytes = f.encode ++ t → frameOf m = f → m.sender = src →
      Handed es ms → Handed (.datagram bytes src :: es) (m :: ms)

theorem parse_of_not_poison {bytes : List UInt8} (h : ¬ Poison bytes) :
    ∃ r, Message.parse Message.new (received bytes) = .ok r := by
  cases hp : Message.parse Message.new (received bytes) with
  | ok r => exact ⟨r, rfl⟩
  | panic => exact absurd ((C03_panic_characterisation _ _).mp hp) h

/-- C46 (partial): as long as no datagram makes the decoder panic and no fatal socket error occurs, the
receive loop keeps running and hands the observers exactly the messages of the well-formed datagrams, in
order, each with its sender's address. Missing: datagrams on which the decoder panics, see
`C46_poison_kills_receiver`. -/
theorem C46_handed_partial (es : List SocketEvent) (h : ∀ e ∈ es, Harmless e) :
    Handed es (recvLoop es).1 ∧ (recvLoop es).2 = .running := by
  induction es with
  | nil => exact ⟨.nil, rfl⟩
  | cons e es ih =>
    obtain ⟨h1, h2⟩ := ih (fun e he => h e (by simp [he]))
    have he := h e (by simp)
    cases e with
    | error => exact absurd he (by simp [Harmless])
    | timeout => exact ⟨.timeout h1, h2⟩
    | datagram bytes src =>
      obtain ⟨⟨r, m⟩, hp⟩ := parse_of_not_poison he
      have hp' : Message.parse Message.new (bytes.take maxPacketSize) = .ok (r, m) := hp
      unfold recvLoop
      cases r with
      | false =>
        simp only [hp']
        refine ⟨.garbage ?_ h1, h2⟩
        intro f hf t ht
        obtain ⟨m', hm', _⟩ := (C04_accepts_exactly_frames _ f).mpr ⟨hf, t, ht⟩
        rw [hp] at hm'
        simp at hm'
      | true =>
        simp only [hp']
        obtain ⟨hv, t, ht⟩ := (C04_accepts_exactly_frames _ (frameOf m)).mp ⟨m, hp, rfl⟩
        exact ⟨.frame hv ht rfl rfl h1, h2⟩

/-- C46: the loop ends with the first fatal socket error and dies with the first poisonous datagram;
everything before has been handed over and nothing after. -/
theorem C46_end (pre : List SocketEvent) (e : SocketEvent) (rest : List SocketEvent)
    (h : ∀ e ∈ pre, Harmless e) (he : ¬ Harmless e) :
    recvLoop (pre ++ e :: rest) = ((recvLoop pre).1, if e = .error then .ended else .panicked) := by
  induction pre with
  | nil =>
    cases e with
    | error => rfl
    | timeout => exact absurd trivial he
    | datagram bytes src =>
      have hb : Poison bytes := Classical.not_not.mp he
      have hp : Message.parse Message.new (bytes.take maxPacketSize) = .panic :=
        (C03_panic_characterisation Message.new (received bytes)).mpr hb
      simp [recvLoop, hp]
  | cons x pre ih =>
    have ih := ih (fun e he => h e (by simp [he]))
    have hx := h x (by simp)
    cases x with
    | error => exact absurd hx (by simp [Harmless])
    | timeout => simpa [recvLoop] using ih
    | datagram bytes src =>
      obtain ⟨⟨r, m⟩, hp⟩ := parse_of_not_poison hx
      have hp' : Message.parse Message.new (bytes.take maxPacketSize) = .ok (r, m) := hp
      cases r <;> simp [recvLoop, hp', ih]

/-- C46 is false: one 12-byte datagram kills the receiver thread; a well-formed frame after it is lost. -/
theorem C46_poison_kills_receiver :
    let frame := [0x10, 0x81, 0, 1, 5, 0xFF, 1, 0x0E, 0xF0, 1, 0x62, 1, 0xD6, 0]
    let poison := [0x10, 0x81, 0, 1, 5, 0xFF, 1, 0x0E, 0xF0, 1, 0x6E, 0]
    let src : SocketAddr := ⟨.v4 1, 3610⟩
    (recvLoop [.datagram frame src]).1.length = 1 ∧
    recvLoop [.datagram poison src, .datagram frame src] = ([], .panicked) := by
  decide +kernel

/-- Garbage, a time-out and two frames, one with trailing bytes. -/
example : let frame := [0x10, 0x81, 0, 1, 5, 0xFF, 1, 0x0E, 0xF0, 1, 0x62, 1, 0xD6, 0]
    let es : List SocketEvent := [.datagram [1, 2, 3] ⟨.v4 1, 3610⟩, .datagram frame ⟨.v4 2, 3610⟩, .timeout,
      .datagram (frame ++ [9]) ⟨.v4 3, 9⟩]
    (recvLoop es).2 = .running ∧ (recvLoop es).1.map (fun m => m.sender) = [⟨.v4 2, 3610⟩, ⟨.v4 3, 9⟩] := by
  decide +kernel

end Uecho
