import Verif.Spec.Observers
import Verif.Props.Discovery
/-!
# Observers: C45
-/
namespace Uecho
open Spec
variable {S : Type}

/-- A node that is not running has no servers (true of a new node and kept by every operation). -/
def Clean (n : Node S) : Prop := n.isRunning = false → n.transport = ⟨[], []⟩

theorem addObservers_eq (l : List ObserverRef) (m : Manager) :
    l.foldl Manager.addObserver m =
      ⟨m.ucast.map (fun s => { s with observers := s.observers ++ l }),
       m.mcast.map (fun s => { s with observers := s.observers ++ l })⟩ := by
  induction l generalizing m with
  | nil => simp
  | cons o l ih =>
    rw [List.foldl_cons, ih]
    simp only [Manager.addObserver, List.map_map, Manager.mk.injEq]
    constructor <;> (apply List.map_congr_left; intro s _; simp [Server.addObserver])

theorem startTransport_clean {menv uenv : List IfOutcome} {m m' : Manager} {r : Bool}
    (hm : m.isRunning = false → m = ⟨[], []⟩)
    (h : Node.startTransport menv uenv m = .ok (r, m')) :
    (r = false → m' = ⟨[], []⟩) ∧ (r = true → m.isRunning = false → ∀ s ∈ m'.ucast ++ m'.mcast, s.observers = []) := by
  unfold Node.startTransport at h
  cases hr : m.isRunning with
  | true =>
    simp only [hr, Bool.not_true, Bool.false_eq_true, if_false, Res.ok.injEq, Prod.mk.injEq] at h
    obtain ⟨rfl, rfl⟩ := h
    simp
  | false =>
    simp only [hr, Bool.not_false, if_true] at h
    have ha := C43_all_or_nothing menv uenv m m' r h
    refine ⟨ha.2.1, ?_⟩
    intro hrt _
    have := hm hr
    subst this
    subst hrt
    unfold Manager.start at h
    have hi : (⟨[], []⟩ : Manager).isRunning = false := rfl
    rw [hi] at h
    simp only [Bool.false_eq_true, if_false] at h
    obtain ⟨s, hs, h⟩ := Res.bind_eq_ok.mp h
    have hloop : ∀ (env : List IfOutcome) (acc out : List Server), (∀ s ∈ acc, s.observers = []) →
        startMulticastLoop env acc = .ok out → ∀ s ∈ out, s.observers = [] := by
      intro env
      induction env with
      | nil =>
        intro acc out ha h
        simp only [startMulticastLoop, Res.ok.injEq] at h
        rw [← h]; exact ha
      | cons e env ih =>
        intro acc out ha h
        simp only [startMulticastLoop] at h
        obtain ⟨k, _, h⟩ := Res.bind_eq_ok.mp h
        refine ih _ out ?_ h
        split
        · exact ha
        · intro s hs
          rcases List.mem_append.mp hs with hs | hs
          · exact ha s hs
          · rw [List.mem_singleton.mp hs]; rfl
    have hm' : ∀ x ∈ s.2, x.observers = [] := by
      simp only [startMulticast, List.isEmpty_nil, Bool.not_true, Bool.false_eq_true, if_false] at hs
      obtain ⟨x, hx, hs⟩ := Res.bind_eq_ok.mp hs
      simp only [Res.pure_eq, Res.ok.injEq] at hs
      rw [← hs]
      exact hloop menv [] x (by simp) hx
    have hu' : ∀ x ∈ (startUnicast uenv []).2, x.observers = [] := by
      rw [startUnicast_eq]
      intro x hx
      simp only [serversFor, List.mem_map] at hx
      obtain ⟨e, _, rfl⟩ := hx
      rfl
    split at h
    · obtain ⟨x, _, h⟩ := Res.bind_eq_ok.mp h
      simp only [Res.pure_eq, Res.ok.injEq, Prod.mk.injEq] at h
      exact absurd h.1 (by simp)
    · split at h
      · obtain ⟨x, _, h⟩ := Res.bind_eq_ok.mp h
        simp only [Res.pure_eq, Res.ok.injEq, Prod.mk.injEq] at h
        exact absurd h.1 (by simp)
      · simp only [Res.pure_eq, Res.ok.injEq, Prod.mk.injEq, true_and] at h
        rw [← h]
        intro x hx
        rcases List.mem_append.mp hx with hx | hx
        · exact hu' x hx
        · exact hm' x hx

/-- The part of the state that matters for observers after one operation. -/
theorem step_ledger {b : Build} {n n' : Node S} {op : Op S} {outs : List Out} {l : Ledger}
    (hc : Clean n) (hreg : n.observers = l.registered) (hcall : ∀ s ∈ servers n, s.observers = l.called)
    (h : n.step b op = .ok (n', outs)) :
    Clean n' ∧ n'.observers = (l.step op n.isRunning n'.isRunning).registered ∧
      ∀ s ∈ servers n', s.observers = (l.step op n.isRunning n'.isRunning).called := by
  have same : ∀ {m : Node S}, m.transport = n.transport → m.observers = n.observers →
      Clean m ∧ m.observers = l.registered ∧ ∀ s ∈ servers m, s.observers = l.called := by
    intro m h1 h2
    refine ⟨?_, h2.trans hreg, ?_⟩
    · intro h3
      rw [h1]
      apply hc
      unfold Node.isRunning at h3 ⊢
      rw [← h1]; exact h3
    · unfold servers; rw [h1]; exact hcall
  cases op with
  | addObject o =>
    obtain ⟨r, hr, h⟩ := Res.bind_eq_ok.mp h
    simp only [Res.pure_eq, Res.ok.injEq, Prod.mk.injEq] at h
    obtain ⟨rfl, rfl⟩ := h
    have := addObject_frame hr
    exact same (by rw [this]) (by rw [this])
  | addHandler _ =>
    simp only [Node.step, Res.ok.injEq, Prod.mk.injEq] at h
    obtain ⟨rfl, rfl⟩ := h
    exact same rfl rfl
  | addObserver o =>
    simp only [Node.step, Res.ok.injEq, Prod.mk.injEq] at h
    obtain ⟨rfl, rfl⟩ := h
    exact ⟨hc, by simp [Node.addObserver, Ledger.step, hreg], hcall⟩
  | send to msg ok =>
    simp only [Node.step, Node.sendMessage, Res.ok.injEq, Prod.mk.injEq] at h
    obtain ⟨rfl, rfl⟩ := h
    exact same (Node.updateTid_transport _ _) (by rw [Node.updateTid_frame])
  | post to msg ok =>
    simp only [Node.step, Node.postMessage, Res.ok.injEq, Prod.mk.injEq] at h
    obtain ⟨rfl, rfl⟩ := h
    exact same (Node.updateTid_transport n msg) (by show (n.updateTid msg).2.observers = _; rw [Node.updateTid_frame])
  | notify msg ok =>
    simp only [Node.step, Node.notify, Res.ok.injEq, Prod.mk.injEq] at h
    obtain ⟨rfl, rfl⟩ := h
    exact same (Node.updateTid_transport _ _) (by rw [Node.updateTid_frame])
  | announceProperty obj prop ok =>
    simp only [Node.step, Node.announceProperty, Node.notify, Res.ok.injEq, Prod.mk.injEq] at h
    obtain ⟨rfl, rfl⟩ := h
    exact same (Node.updateTid_transport _ _) (by rw [Node.updateTid_frame])
  | announce ok =>
    simp only [Node.step, Res.ok.injEq, Prod.mk.injEq] at h
    obtain ⟨rfl, rfl⟩ := h
    have := (announce_frame ok n).1
    exact same (by rw [this]) (by rw [this])
  | setProperty oc c d =>
    simp only [Node.step, Res.ok.injEq, Prod.mk.injEq] at h
    obtain ⟨rfl, rfl⟩ := h
    have := setProperty_frame n oc c d
    exact same (by rw [this]) (by rw [this])
  | edit oc f =>
    simp only [Node.step, Res.ok.injEq, Prod.mk.injEq] at h
    obtain ⟨rfl, rfl⟩ := h
    exact same rfl rfl
  | receive msg free ω ok =>
    simp only [Node.step, Node.observeTry] at h
    split at h
    · simp only [Res.ok.injEq, Prod.mk.injEq] at h
      obtain ⟨rfl, rfl⟩ := h
      exact same rfl rfl
    · have := observe_frame h
      exact same this.2.1 this.2.2.1
  | stop =>
    simp only [Node.step] at h
    obtain ⟨r, hr, h⟩ := Res.bind_eq_ok.mp h
    simp only [Res.pure_eq, Res.ok.injEq, Prod.mk.injEq] at h
    obtain ⟨rfl, rfl⟩ := h
    have ht : r.2.transport = ⟨[], []⟩ := by
      by_cases hth : ThreadsOk n.transport
      · rw [(C42_stop n).1 hth] at hr
        simp only [Res.ok.injEq] at hr
        rw [← hr]
      · rw [(C42_stop n).2 hth] at hr
        exact absurd hr (by simp)
    refine ⟨fun _ => ht, ?_, ?_⟩
    · rw [stop_frame (r := r.1) (n' := r.2) hr]; exact hreg
    · unfold servers; rw [ht]; simp
  | start menv uenv ok =>
    simp only [Node.step] at h
    obtain ⟨⟨r, m, o⟩, hr, h⟩ := Res.bind_eq_ok.mp h
    simp only [Res.pure_eq, Res.ok.injEq, Prod.mk.injEq] at h
    obtain ⟨rfl, rfl⟩ := h
    obtain ⟨up, t, ht, hcase⟩ := start_result hr
    have hrun := startTransport_running ht
    have hcl := startTransport_clean (fun h => hc h) ht
    rcases hcase with ⟨hu, _, hm, _⟩ | ⟨hu, n₀, hn₀, _, hm, _⟩
    · have ht0 := hcl.1 hu
      have hmt : m.transport = ⟨[], []⟩ := by rw [hm]; exact ht0
      refine ⟨fun _ => hmt, by rw [hm]; exact hreg, ?_⟩
      unfold servers; rw [hmt]; simp
    · have hmt : m.transport = n.observers.foldl Manager.addObserver t := by
        rw [hm, (announce_frame ok n₀).1, hn₀]
      have hmr : m.isRunning = true := by
        unfold Node.isRunning
        rw [hmt, addObservers_isRunning]
        exact hrun.1.mp hu
      refine ⟨fun h' => absurd h' (by rw [hmr]; simp), ?_, ?_⟩
      · rw [hm, (announce_frame ok n₀).1, hn₀]; exact hreg
      · intro s hs
        unfold servers at hs
        rw [hmt, addObservers_eq] at hs
        simp only [] at hs
        rw [← List.map_append] at hs
        obtain ⟨s₀, hs₀, rfl⟩ := List.mem_map.mp hs
        simp only [Ledger.step, hmr, if_true, hreg]
        cases hwas : n.isRunning with
        | true =>
          have := (hrun.2 hwas).2
          rw [this] at hs₀
          rw [hcall s₀ hs₀]; rfl
        | false =>
          rw [hcl.2 hu hwas s₀ hs₀]; rfl

theorem step_isRunning {b : Build} {n n' : Node S} {op : Op S} {outs : List Out}
    (h : n.step b op = .ok (n', outs)) (h1 : ∀ x y z, op ≠ .start x y z) (h2 : op ≠ .stop) :
    n'.isRunning = n.isRunning := by
  unfold Node.isRunning
  congr 1
  cases op with
  | addObject o =>
    obtain ⟨r, hr, h⟩ := Res.bind_eq_ok.mp h
    simp only [Res.pure_eq, Res.ok.injEq, Prod.mk.injEq] at h
    obtain ⟨rfl, rfl⟩ := h
    rw [addObject_frame hr]
  | start x y z => exact absurd rfl (h1 x y z)
  | stop => exact absurd rfl h2
  | announce ok =>
    simp only [Node.step, Res.ok.injEq, Prod.mk.injEq] at h
    obtain ⟨rfl, rfl⟩ := h
    rw [(announce_frame ok n).1]
  | setProperty oc c d =>
    simp only [Node.step, Res.ok.injEq, Prod.mk.injEq] at h
    obtain ⟨rfl, rfl⟩ := h
    rw [setProperty_frame n oc c d]
  | edit oc f =>
    simp only [Node.step, Res.ok.injEq, Prod.mk.injEq] at h
    obtain ⟨rfl, rfl⟩ := h
    rfl
  | receive msg free ω ok =>
    simp only [Node.step, Node.observeTry] at h
    split at h
    · simp only [Res.ok.injEq, Prod.mk.injEq] at h
      obtain ⟨rfl, rfl⟩ := h
      rfl
    · exact (observe_frame h).2.1
  | _ =>
    simp only [Node.step, Node.sendMessage, Node.postMessage, Node.notify, Node.announceProperty,
      Node.addRequestHandler, Node.addObserver, Res.ok.injEq, Prod.mk.injEq] at h
    obtain ⟨rfl, rfl⟩ := h
    simp only [Node.updateTid_transport]

theorem step_stop {b : Build} {n n' : Node S} {outs : List Out} (h : n.step b .stop = .ok (n', outs)) :
    n'.isRunning = false := by
  simp only [Node.step] at h
  obtain ⟨r, hr, h⟩ := Res.bind_eq_ok.mp h
  simp only [Res.pure_eq, Res.ok.injEq, Prod.mk.injEq] at h
  obtain ⟨rfl, rfl⟩ := h
  by_cases hth : ThreadsOk n.transport
  · rw [(C42_stop n).1 hth] at hr
    simp only [Res.ok.injEq] at hr
    rw [← hr]; rfl
  · rw [(C42_stop n).2 hth] at hr
    exact absurd hr (by simp)

/-- C45, all histories: after any sequence of calls and received messages, every server of the node calls
exactly the observers the ledger says, in that order. In particular an observer is called once for every
`start` since the transport was last brought up that came after its registration. -/
theorem C45_history {b : Build} (ops : List (Op S)) (n n' : Node S) (outs : List Out) (l : Ledger)
    (hc : Clean n) (hreg : n.observers = l.registered) (hcall : ∀ s ∈ servers n, s.observers = l.called)
    (h : n.run b ops = .ok (n', outs)) :
    n'.observers = (l.run b n ops).registered ∧ (∀ s ∈ servers n', s.observers = (l.run b n ops).called) ∧
      Clean n' := by
  induction ops generalizing n l outs with
  | nil =>
    simp only [Node.run, Res.ok.injEq, Prod.mk.injEq] at h
    obtain ⟨rfl, rfl⟩ := h
    exact ⟨hreg, hcall, hc⟩
  | cons op ops ih =>
    simp only [Node.run] at h
    obtain ⟨r, hr, h⟩ := Res.bind_eq_ok.mp h
    obtain ⟨r', hr', h⟩ := Res.bind_eq_ok.mp h
    simp only [Res.pure_eq, Res.ok.injEq, Prod.mk.injEq] at h
    obtain ⟨rfl, rfl⟩ := h
    obtain ⟨h1, h2, h3⟩ := step_ledger (n' := r.1) (outs := r.2) hc hreg hcall hr
    have := ih r.1 r'.2 _ h1 h2 h3 hr'
    simp only [Ledger.run, hr]
    exact this

/-- Registering in an orderly history. -/
theorem orderly_ledger {b : Build} (ops : List (Op S)) (n n' : Node S) (outs : List Out) (l : Ledger)
    (hl : n.isRunning = true → l.called = l.registered) (ho : Orderly b n ops)
    (h : n.run b ops = .ok (n', outs)) :
    (n'.isRunning = true → (l.run b n ops).called = (l.run b n ops).registered) ∧
    (l.run b n ops).registered = l.registered ++ registrations ops := by
  induction ops generalizing n l outs with
  | nil =>
    simp only [Node.run, Res.ok.injEq, Prod.mk.injEq] at h
    obtain ⟨rfl, rfl⟩ := h
    exact ⟨hl, by simp [Ledger.run, registrations]⟩
  | cons op ops ih =>
    simp only [Node.run] at h
    obtain ⟨r, hr, h⟩ := Res.bind_eq_ok.mp h
    obtain ⟨r', hr', h⟩ := Res.bind_eq_ok.mp h
    simp only [Res.pure_eq, Res.ok.injEq, Prod.mk.injEq] at h
    obtain ⟨rfl, rfl⟩ := h
    simp only [Orderly, hr] at ho
    simp only [Ledger.run, hr]
    have hrun : r.1.isRunning = true →
        (l.step op n.isRunning r.1.isRunning).called = (l.step op n.isRunning r.1.isRunning).registered := by
      intro hr1
      cases op with
      | start menv uenv ok =>
        have hn : n.isRunning = false := ho.1
        simp [Ledger.step, hr1, hn]
      | stop =>
        have := step_stop (n' := r.1) (outs := r.2) hr
        rw [this] at hr1; simp at hr1
      | addObserver o =>
        have hn : n.isRunning = false := ho.1
        have := step_isRunning (n' := r.1) (outs := r.2) hr (by simp) (by simp)
        rw [this, hn] at hr1; simp at hr1
      | _ =>
        have := step_isRunning (n' := r.1) (outs := r.2) hr (by simp) (by simp)
        rw [this] at hr1
        exact hl hr1
    have hreg : (l.step op n.isRunning r.1.isRunning).registered = l.registered ++ registrations [op] := by
      cases op <;> simp [Ledger.step, registrations]
    have := ih r.1 r'.2 _ hrun ho.2 hr'
    refine ⟨this.1, ?_⟩
    rw [this.2, hreg, List.append_assoc]
    congr 1
    unfold registrations
    rw [← List.filterMap_append]; rfl

/-- What the application's observers see: each of them, in order, each message in turn. -/
theorem notifyObservers_seen {b : Build} {db : Database} (msg : Message) (obs : List ObserverRef) (env : Nat → CallEnv)
    (h h' : Host S) (outs : List Out) (hr : h.notifyObservers b db env msg obs = .ok (h', outs)) :
    h'.seen = h.seen ++ (users obs).map (fun k => (k, msg)) := by
  induction obs generalizing h env outs with
  | nil =>
    simp only [Host.notifyObservers, Res.ok.injEq, Prod.mk.injEq] at hr
    rw [← hr.1]; simp [users]
  | cons o obs ih =>
    simp only [Host.notifyObservers] at hr
    obtain ⟨r, h1, hr⟩ := Res.bind_eq_ok.mp hr
    obtain ⟨r', h2, hr⟩ := Res.bind_eq_ok.mp hr
    simp only [Res.pure_eq, Res.ok.injEq, Prod.mk.injEq] at hr
    obtain ⟨rfl, rfl⟩ := hr
    rw [ih _ _ _ h2]
    cases o with
    | node =>
      simp only [Host.invoke] at h1
      obtain ⟨x, _, h1⟩ := Res.bind_eq_ok.mp h1
      simp only [Res.pure_eq, Res.ok.injEq] at h1
      rw [← h1]; rfl
    | controller =>
      simp only [Host.invoke] at h1
      obtain ⟨x, _, h1⟩ := Res.bind_eq_ok.mp h1
      simp only [Res.pure_eq, Res.ok.injEq] at h1
      rw [← h1]; rfl
    | device =>
      simp only [Host.invoke, Res.ok.injEq] at h1
      rw [← h1]; rfl
    | user k =>
      simp only [Host.invoke, Res.ok.injEq] at h1
      rw [← h1]; simp [users]

/-- C45: when a server hands messages to its observers, every observer of the application in the server's
list is called exactly once per entry in the list and per message, in order. -/
theorem C45_calls {b : Build} {db : Database} (obs : List ObserverRef) (env : Nat → Nat → CallEnv)
    (h h' : Host S) (ms : List Message) (outs : List Out) (hr : h.serve b db obs env ms = .ok (h', outs)) :
    h'.seen = h.seen ++ ms.flatMap (fun m => (users obs).map (fun k => (k, m))) := by
  induction ms generalizing h env outs with
  | nil =>
    simp only [Host.serve, Res.ok.injEq, Prod.mk.injEq] at hr
    rw [← hr.1]; simp
  | cons m ms ih =>
    simp only [Host.serve] at hr
    obtain ⟨r, h1, hr⟩ := Res.bind_eq_ok.mp hr
    obtain ⟨r', h2, hr⟩ := Res.bind_eq_ok.mp hr
    simp only [Res.pure_eq, Res.ok.injEq, Prod.mk.injEq] at hr
    obtain ⟨rfl, rfl⟩ := hr
    rw [ih _ _ _ h2, notifyObservers_seen m obs (env 0) h r.1 r.2 h1, List.flatMap_cons, List.append_assoc]

/-- C45 for orderly histories (the full property drops the hypothesis `Orderly`, and is then false, see the
theorems below): start from a new node, do anything, but register observers and call `start` only while the
node is not running. If the node is running afterwards, each of its servers calls exactly the registered
observers, each once per registration and per received message: the application's observers see precisely
the received messages. -/
theorem C45_exactly_once_partial (b : Build) (ω₀ : HashOrder) (db : Database) (hdb : standardDb b ω₀ = .ok db)
    (uuid₁ uuid₂ : List UInt8) (hu₁ : uuid₁.length = 16) (hu₂ : uuid₂.length = 16) (ω : HashOrder) (app : S)
    (n₀ n : Node S) (hnew : Node.new b db uuid₁ uuid₂ ω app = .ok n₀) (ops : List (Op S)) (outs₀ : List Out)
    (ho : Orderly b n₀ ops) (hrun : n₀.run b ops = .ok (n, outs₀)) (hr : n.isRunning = true)
    (s : Server) (hs : s ∈ servers n) :
    s.observers = registrations ops ∧
    ∀ (h h' : Host S) (env : Nat → Nat → CallEnv) (evs : List SocketEvent) (outs : List Out),
      h.serve b db s.observers env (recvLoop evs).1 = .ok (h', outs) →
      h'.seen = h.seen ++ (recvLoop evs).1.flatMap (fun m => (users (registrations ops)).map (fun k => (k, m))) := by
  obtain ⟨n₁, h1, _, _, hobs, _, htr, _⟩ := newNode_inv hdb hu₁ hu₂ ω app
  rw [hnew] at h1
  simp only [Res.ok.injEq] at h1
  subst h1
  have hn : n₀.isRunning = false := by unfold Node.isRunning; rw [htr]; rfl
  have hc : Clean n₀ := fun _ => htr
  have hh := C45_history ops n₀ n outs₀ ⟨[], []⟩ hc hobs (by unfold servers; rw [htr]; simp [Manager.new]) hrun
  have hl := orderly_ledger ops n₀ n outs₀ ⟨[], []⟩ (by rw [hn]; simp) ho hrun
  have hso : s.observers = registrations ops := by
    rw [hh.2.1 s hs, hl.1 hr, hl.2]; rfl
  refine ⟨hso, ?_⟩
  intro h h' env evs outs hserve
  have := C45_calls _ env h h' _ outs hserve
  rw [this, hso]

/-- C45 fails for an observer registered while the node is running: until the next `start` it is never
called. -/
theorem C45_late_observer_fails (b : Build) (db : Database) (n : Node S) (k : Nat) (s : Server)
    (hs : s ∈ servers (n.addObserver (.user k))) (hk : ∀ s ∈ servers n, ObserverRef.user k ∉ s.observers)
    (h h' : Host S) (env : Nat → Nat → CallEnv) (ms : List Message) (outs : List Out)
    (hserve : h.serve b db s.observers env ms = .ok (h', outs)) :
    (n.addObserver (.user k)).observers = n.observers ++ [.user k] ∧
    h'.seen.filter (fun x => x.1 = k) = h.seen.filter (fun x => x.1 = k) := by
  refine ⟨rfl, ?_⟩
  have hnot : ObserverRef.user k ∉ s.observers := hk s hs
  rw [C45_calls _ env h h' ms outs hserve, List.filter_append]
  have : (ms.flatMap (fun m => (users s.observers).map (fun k => (k, m)))).filter (fun x => x.1 = k) = [] := by
    rw [List.filter_eq_nil_iff]
    intro x hx hxk
    obtain ⟨m', _, hx⟩ := List.mem_flatMap.mp hx
    obtain ⟨k', hk', rfl⟩ := List.mem_map.mp hx
    have hkk : k' = k := by simpa using hxk
    subst hkk
    unfold users at hk'
    obtain ⟨o, ho, hok⟩ := List.mem_filterMap.mp hk'
    cases o <;> simp at hok
    subst hok
    exact hnot ho
  rw [this, List.append_nil]

/-- C45 fails when `start` is called on a running node: every registered observer is then called once more
for every message. (This is also what a retry does after a start whose announcement failed, see
`C42_failed_start`.) -/
theorem C45_restart_fails (menv uenv : List IfOutcome) (ok : Nat → Bool) (n n' : Node S) (r : Bool) (outs : List Out)
    (hrun : n.isRunning = true) (h : n.start menv uenv ok = .ok (r, n', outs)) :
    (servers n').map (fun s => s.observers) = (servers n).map (fun s => s.observers ++ n.observers) := by
  obtain ⟨up, t, ht, hcase⟩ := start_result h
  have hr := (startTransport_running ht).2 hrun
  rcases hcase with ⟨hu, _⟩ | ⟨hu, n₀, hn₀, _, hm, _⟩
  · rw [hr.1] at hu; simp at hu
  · have hmt : n'.transport = n.observers.foldl Manager.addObserver n.transport := by
      rw [hm, (announce_frame ok n₀).1, hn₀, ← hr.2]
    unfold servers
    rw [hmt, addObservers_eq]
    simp only [List.map_append, List.map_map]
    rfl

/-- A read request for the instance list is answered once for every time the node is in the server's
list. -/
theorem replies_count {b : Build} {db : Database} (obs : List ObserverRef) (hctrl : ObserverRef.controller ∉ obs)
    (env : Nat → CallEnv) (hfree : ∀ i, (env i).nodeFree = true) {msg : Message} (hesv : msg.esvByte = 0x62)
    (hdeoj : msg.deoj = profileCode) (hprops : msg.properties = [⟨0xD6, []⟩]) (h : Host S)
    (hi : ProfileInv h.node)
    (hone : ∀ c ∈ (h.node.objects.map Object.code).tail, c ≠ profileCode) :
    ∃ h' outs, h.notifyObservers b db env msg obs = .ok (h', outs) ∧
      (replies outs).length = obs.count .node := by
  induction obs generalizing h env with
  | nil => exact ⟨_, _, rfl, rfl⟩
  | cons o obs ih =>
    have hctrl' : ObserverRef.controller ∉ obs := fun h => hctrl (List.mem_cons_of_mem _ h)
    have hfree' : ∀ i, (env (i + 1)).nodeFree = true := fun i => hfree (i + 1)
    have idle : ∀ h₁ : Host S, h.invoke b db (env 0) msg o = .ok (h₁, []) → h₁.node = h.node → o ≠ .node →
        ∃ h' outs, h.notifyObservers b db env msg (o :: obs) = .ok (h', outs) ∧
          (replies outs).length = (o :: obs).count .node := by
      intro h₁ hinv hnode hne
      obtain ⟨h', outs, h1, h2⟩ := ih hctrl' (fun i => env (i + 1)) hfree' h₁ (by rw [hnode]; exact hi)
        (by rw [hnode]; exact hone)
      refine ⟨h', outs, ?_, ?_⟩
      · simp only [Host.notifyObservers, hinv, Res.bind_ok, h1, List.nil_append, Res.pure_eq]
      · rw [h2, List.count_cons_of_ne hne]
    cases o with
    | controller => exact absurd (List.mem_cons_self) hctrl
    | device => exact idle h rfl rfl (by simp)
    | user k => exact idle { h with seen := h.seen ++ [(k, msg)] } rfl rfl (by simp)
    | node =>
      obtain ⟨n', outs, u, d, hobs, hrep, _⟩ := profile_read (b := b) (env 0).ω (env 0).ok hi (by
        intro np ds ho o hmem hoc
        refine hone o.code ?_ hoc
        rw [ho]
        exact List.mem_map_of_mem hmem) hesv hdeoj hprops
      have hstep := step_inv (b := b) (n := h.node) (op := .receive msg true (env 0).ω (env 0).ok) hi trivial
        (n' := n') (outs := outs) hobs
      have hcodes : n'.objects.map Object.code = h.node.objects.map Object.code := by
        rw [hstep.2]; simp [addedCodes]
      obtain ⟨h', outs', h1, h2⟩ := ih hctrl' (fun i => env (i + 1)) hfree' { h with node := n' } hstep.1
        (by show ∀ c ∈ (n'.objects.map Object.code).tail, _; rw [hcodes]; exact hone)
      refine ⟨h', outs ++ outs', ?_, ?_⟩
      · simp only [Host.notifyObservers, Host.invoke, Node.observeTry, hfree 0, Bool.not_true, Bool.false_eq_true,
          if_false, hobs, Res.bind_ok, Res.pure_eq]
        simp only [h1, Res.bind_ok]
      · rw [List.count_cons_self, ← h2]
        have : replies (outs ++ outs') = replies outs ++ replies outs' := by
          simp [replies, handed_append]
        rw [this, hrep, List.length_append]; simp [Nat.add_comm]

/-- Effect of creating a device on a node. -/
theorem newWithNode_frame {b : Build} {db : Database} {ω₀ : HashOrder} (hdb : standardDb b ω₀ = .ok db)
    {uuid₁ uuid₂ : List UInt8} (hu₁ : uuid₁.length = 16) (hu₂ : uuid₂.length = 16) {ω : HashOrder} {code : UInt32}
    {n n' : Node S} {d : Device} (hi : ProfileInv n)
    (h : Device.newWithNode b db uuid₁ uuid₂ ω code n = .ok (d, n')) :
    ProfileInv n' ∧ n'.observers = n.observers ++ [.node, .device] ∧ n'.transport = n.transport ∧
      ∃ o : Object, o.code.toNat = code.toNat % 2 ^ 24 ∧
        n'.objects.map Object.code = n.objects.map Object.code ++ [o.code] := by
  unfold Device.newWithNode at h
  obtain ⟨o, ho, h⟩ := Res.bind_eq_ok.mp h
  obtain ⟨n₁, hn₁, h⟩ := Res.bind_eq_ok.mp h
  simp only [Res.pure_eq, Res.ok.injEq, Prod.mk.injEq] at h
  obtain ⟨_, rfl⟩ := h
  obtain ⟨o', ho', hcode, _, hk, _⟩ := deviceObject_spec hdb hu₁ hu₂ ω code
  rw [ho] at ho'
  simp only [Res.ok.injEq] at ho'
  subst ho'
  have hi' : ProfileInv (deviceNodeNew n) := ⟨hi.keys, hi.passive, hi.builtin, hi.shape⟩
  have hstep := step_inv (b := b) (op := .addObject o) hi' hk (n' := n₁) (outs := [])
    (by simp only [Node.step, hn₁, Res.bind_ok, Res.pure_eq])
  have hf := addObject_frame hn₁
  refine ⟨hstep.1, ?_, ?_, o, hcode, ?_⟩
  · rw [hf]; simp [deviceNodeNew, Node.addObserver]
  · rw [hf]; rfl
  · rw [hstep.2]; rfl

/-- C45 fails for a node with two devices, each created by `Device::new_with_node`: each of them registers
the node as an observer again, so the node processes every received message twice. A read request for its
instance list is answered twice, for instance. -/
theorem C45_two_devices_fails (b : Build) (ω₀ : HashOrder) (db : Database) (hdb : standardDb b ω₀ = .ok db)
    (uuid : Nat → List UInt8) (hu : ∀ i, (uuid i).length = 16) (ω₁ ω₂ ω₃ : HashOrder) (app : S) (c₁ c₂ : UInt32)
    (hc₁ : c₁.toNat % 2 ^ 24 ≠ 0x0EF001) (hc₂ : c₂.toNat % 2 ^ 24 ≠ 0x0EF001)
    (n₀ n₁ n₂ n : Node S) (d₁ d₂ : Device) (hnew : Node.new b db (uuid 0) (uuid 1) ω₁ app = .ok n₀)
    (h₁ : Device.newWithNode b db (uuid 2) (uuid 3) ω₂ c₁ n₀ = .ok (d₁, n₁))
    (h₂ : Device.newWithNode b db (uuid 4) (uuid 5) ω₃ c₂ n₁ = .ok (d₂, n₂))
    (menv uenv : List IfOutcome) (ok : Nat → Bool) (outs₀ : List Out)
    (hstart : d₂.start menv uenv ok n₂ = .ok (true, n, outs₀)) (s : Server) (hs : s ∈ servers n)
    (h : Host S) (hn : h.node = n) (env : Nat → CallEnv) (hfree : ∀ i, (env i).nodeFree = true)
    (msg : Message) (hesv : msg.esvByte = 0x62) (hdeoj : msg.deoj = 0x0EF001)
    (hprops : msg.properties = [⟨0xD6, []⟩]) :
    ∃ h' outs, h.notifyObservers b db env msg s.observers = .ok (h', outs) ∧ (replies outs).length = 2 := by
  obtain ⟨n₀', hn₀, hinv, hcodes, hobs, _, htr, _⟩ := newNode_inv hdb (hu 0) (hu 1) ω₁ app
  rw [hnew] at hn₀
  simp only [Res.ok.injEq] at hn₀
  subst hn₀
  obtain ⟨hi₁, ho₁, ht₁, o₁, hoc₁, hcs₁⟩ := newWithNode_frame hdb (hu 2) (hu 3) hinv h₁
  obtain ⟨hi₂, ho₂, ht₂, o₂, hoc₂, hcs₂⟩ := newWithNode_frame hdb (hu 4) (hu 5) hi₁ h₂
  have hst : n₂.start menv uenv ok = .ok (true, n, outs₀) := by
    unfold Device.start at hstart
    obtain ⟨r, hr, hstart⟩ := Res.bind_eq_ok.mp hstart
    split at hstart
    · simp only [Res.pure_eq, Res.ok.injEq, Prod.mk.injEq] at hstart
      exact absurd hstart.1 (by simp)
    · rename_i h3
      simp only [Res.pure_eq, Res.ok.injEq, Prod.mk.injEq, true_and] at hstart
      rw [hr]
      have : r.1 = true := by simpa using h3
      obtain ⟨r1, r2⟩ := r
      simp only at this hstart
      rw [this, hstart]
  have hstep : n₂.step b (.start menv uenv ok) = .ok (n, outs₀) := by
    simp only [Node.step, hst, Res.bind_ok, Res.pure_eq]
  have hin := step_inv (b := b) hi₂ (op := .start menv uenv ok) trivial hstep
  have htr₂ : n₂.transport = ⟨[], []⟩ := by rw [ht₂, ht₁, htr]; rfl
  have hobs₂ : n₂.observers = [.node, .device, .node, .device] := by rw [ho₂, ho₁, hobs]; rfl
  have hl := step_ledger (b := b) (l := ⟨[.node, .device, .node, .device], []⟩) (fun _ => htr₂) hobs₂
    (by unfold servers; rw [htr₂]; simp) hstep
  have hnr : n₂.isRunning = false := by unfold Node.isRunning; rw [htr₂]; rfl
  have hr := (C42_start menv uenv ok n₂ n outs₀ hst).1
  have hso : s.observers = [.node, .device, .node, .device] := by
    rw [hl.2.2 s hs]; simp [Ledger.step, hr, hnr]
  have hno : ∀ {o : Object} {c : UInt32}, o.code.toNat = c.toNat % 2 ^ 24 → c.toNat % 2 ^ 24 ≠ 0x0EF001 →
      o.code ≠ profileCode := by
    intro o c h1 h2 h3
    rw [h3] at h1
    exact h2 h1.symm
  have := replies_count (b := b) (db := db) s.observers (by rw [hso]; simp) env hfree hesv hdeoj hprops h
    (by rw [hn]; exact hin.1) (by
      rw [hn, hin.2, hcs₂, hcs₁, hcodes]
      intro c hc
      simp only [addedCodes, List.filterMap_cons, List.filterMap_nil, List.append_nil, List.cons_append, List.nil_append,
        List.tail_cons, List.mem_cons, List.not_mem_nil, or_false] at hc
      rcases hc with rfl | rfl
      · exact hno hoc₁ hc₁
      · exact hno hoc₂ hc₂)
  rw [hso] at this ⊢
  exact this

/-- C45: a controller on a new node: once started, every server calls its node and then the controller. Hence a
controller also answers requests for its own node profile, each exactly once. -/
theorem C45_controller (b : Build) (ω₀ : HashOrder) (db : Database) (hdb : standardDb b ω₀ = .ok db)
    (uuid₁ uuid₂ : List UInt8) (hu₁ : uuid₁.length = 16) (hu₂ : uuid₂.length = 16) (ω : HashOrder) (app : S)
    (n₀ : Node S) (hnew : Node.new b db uuid₁ uuid₂ ω app = .ok n₀)
    (menv uenv : List IfOutcome) (ok : Nat → Bool) (c : Host S) (outs₀ : List Out)
    (hst : (Host.newController n₀).start menv uenv ok = .ok (true, c, outs₀)) (s : Server) (hs : s ∈ servers c.node) :
    s.observers = [.node, .controller] ∧
    ∀ (h : Host S) (env : Nat → CallEnv) (msg : Message), h.node = c.node → (env 0).nodeFree = true → msg.esvByte = 0x62 →
      msg.deoj = 0x0EF001 → msg.properties = [⟨0xD6, []⟩] →
      ∃ h' outs, h.notifyObservers b db env msg s.observers = .ok (h', outs) ∧ (replies outs).length = 1 ∧
        h'.remotes = h.remotes := by
  obtain ⟨n₀', hn₀, hinv, hcodes, hobs, _, htr, _⟩ := newNode_inv hdb hu₁ hu₂ ω app
  rw [hnew] at hn₀
  simp only [Res.ok.injEq] at hn₀
  subst hn₀
  have hi₂ : ProfileInv (controllerNodeNew n₀) := ⟨hinv.keys, hinv.passive, hinv.builtin, hinv.shape⟩
  generalize hn : c.node = n at hs
  have hst : (controllerNodeNew n₀).start menv uenv ok = .ok (true, n, outs₀) := by
    unfold Host.start at hst
    obtain ⟨r, hr, hst⟩ := Res.bind_eq_ok.mp hst
    split at hst
    · simp only [Res.pure_eq, Res.ok.injEq, Prod.mk.injEq] at hst
      exact absurd hst.1 (by simp)
    · rename_i h3
      simp only [Res.pure_eq, Res.ok.injEq, Prod.mk.injEq, true_and] at hst
      have : r.1 = true := by simpa using h3
      obtain ⟨r1, r2⟩ := r
      simp only at this hst
      rw [← hst.1] at hn
      show (Host.newController n₀).node.start menv uenv ok = _
      rw [hr, this, ← hn, ← hst.2]
  have hstep : (controllerNodeNew n₀).step b (.start menv uenv ok) = .ok (n, outs₀) := by
    simp only [Node.step, hst, Res.bind_ok, Res.pure_eq]
  have hin := step_inv (b := b) hi₂ (op := .start menv uenv ok) trivial hstep
  have htr₂ : (controllerNodeNew n₀).transport = ⟨[], []⟩ := htr
  have hobs₂ : (controllerNodeNew n₀).observers = [.node, .controller] := by
    show n₀.observers ++ [.node] ++ [.controller] = _
    rw [hobs]; rfl
  have hl := step_ledger (b := b) (l := ⟨[.node, .controller], []⟩) (fun _ => htr₂) hobs₂
    (by unfold servers; rw [htr₂]; simp) hstep
  have hnr : (controllerNodeNew n₀).isRunning = false := by unfold Node.isRunning; rw [htr₂]; rfl
  have hr := (C42_start menv uenv ok _ n outs₀ hst).1
  have hso : s.observers = [.node, .controller] := by
    rw [hl.2.2 s hs]; simp [Ledger.step, hr, hnr]
  refine ⟨hso, ?_⟩
  rintro h env msg rfl hfree hesv hdeoj hprops
  obtain ⟨n', outs, u, d, hobsv, hrep, _⟩ := profile_read (b := b) (env 0).ω (env 0).ok hin.1 (by
    intro np ds ho o hmem hoc
    have : h.node.objects.map Object.code = n₀.objects.map Object.code := by
      rw [hin.2]
      show n₀.objects.map Object.code ++ _ = _
      simp [addedCodes]
    rw [hcodes, ho] at this
    simp only [List.map_cons, List.cons.injEq, List.map_eq_nil_iff] at this
    rw [this.2] at hmem; simp at hmem) hesv hdeoj hprops
  have hno : ¬ IsProfileMessage msg := by
    rintro ⟨h1 | h1, _⟩ <;> rw [hesv] at h1 <;> exact absurd h1 (by decide)
  refine ⟨{ h with node := n' }, outs, ?_, by rw [hrep]; rfl, rfl⟩
  rw [hso]
  simp only [Host.notifyObservers, Host.invoke, Node.observeTry, hfree, Bool.not_true, Bool.false_eq_true,
    if_false, hobsv, Res.bind_ok, Res.pure_eq]
  simp only [observeController_other b db (env 1).ω (env 1).uuid (env 1).ctrlFree h.remotes (Or.inr hno), Res.bind_ok,
    List.append_nil]

/-- A successful start of a controller is a successful start of its node. -/
theorem hostStart_node {menv uenv : List IfOutcome} {ok : Nat → Bool} {h c : Host S} {outs : List Out}
    (hst : h.start menv uenv ok = .ok (true, c, outs)) : h.node.start menv uenv ok = .ok (true, c.node, outs) := by
  unfold Host.start at hst
  obtain ⟨⟨r1, r2⟩, hr, hst⟩ := Res.bind_eq_ok.mp hst
  split at hst
  · simp only [Res.pure_eq, Res.ok.injEq, Prod.mk.injEq] at hst
    exact absurd hst.1 (by simp)
  · rename_i h3
    simp only [Res.pure_eq, Res.ok.injEq, Prod.mk.injEq, true_and] at hst
    have : r1 = true := by simpa using h3
    rw [hr, this, ← hst.2, ← hst.1]

theorem users_map (ks : List Nat) : users (ks.map ObserverRef.user) = ks := by
  induction ks with
  | nil => rfl
  | cons k ks ih =>
    unfold users at ih ⊢
    rw [List.map_cons, List.filterMap_cons, ih]

theorem addUsers_node (ks : List Nat) (h : Host S) :
    (ks.foldl (fun h k => h.addObserver (.user k)) h).node =
      { h.node with observers := h.node.observers ++ ks.map ObserverRef.user } := by
  induction ks generalizing h with
  | nil => simp
  | cons k ks ih =>
    rw [List.foldl_cons, ih]
    simp [Host.addObserver, Node.addObserver]

/-- C45: observers registered at a controller (`Controller::add_observer`) before it is started: every server calls the
node, the controller and then each of them, in the order of registration, and so each of them sees every message the
server receives exactly once. -/
theorem C45_controller_observers (b : Build) (ω₀ : HashOrder) (db : Database) (hdb : standardDb b ω₀ = .ok db)
    (uuid₁ uuid₂ : List UInt8) (hu₁ : uuid₁.length = 16) (hu₂ : uuid₂.length = 16) (ω : HashOrder) (app : S)
    (n₀ : Node S) (hnew : Node.new b db uuid₁ uuid₂ ω app = .ok n₀) (ks : List Nat)
    (menv uenv : List IfOutcome) (ok : Nat → Bool) (c : Host S) (outs₀ : List Out)
    (hst : (ks.foldl (fun h k => h.addObserver (.user k)) (Host.newController n₀)).start menv uenv ok = .ok (true, c, outs₀))
    (s : Server) (hs : s ∈ servers c.node) :
    s.observers = [.node, .controller] ++ ks.map ObserverRef.user ∧
    ∀ (h h' : Host S) (env : Nat → Nat → CallEnv) (evs : List SocketEvent) (outs : List Out),
      h.serve b db s.observers env (recvLoop evs).1 = .ok (h', outs) →
      h'.seen = h.seen ++ (recvLoop evs).1.flatMap (fun m => ks.map (fun k => (k, m))) := by
  obtain ⟨n₀', hn₀, _, _, hobs, _, htr, _⟩ := newNode_inv hdb hu₁ hu₂ ω app
  rw [hnew] at hn₀
  simp only [Res.ok.injEq] at hn₀
  subst hn₀
  have hst := hostStart_node hst
  rw [addUsers_node] at hst
  generalize hn₁ : ({ (Host.newController n₀).node with
    observers := (Host.newController n₀).node.observers ++ ks.map ObserverRef.user } : Node S) = n₁ at hst
  have htr₁ : n₁.transport = ⟨[], []⟩ := by rw [← hn₁]; exact htr
  have hobs₁ : n₁.observers = [.node, .controller] ++ ks.map ObserverRef.user := by
    rw [← hn₁]
    show n₀.observers ++ [.node] ++ [.controller] ++ _ = _
    rw [hobs]; rfl
  have hstep : n₁.step b (.start menv uenv ok) = .ok (c.node, outs₀) := by
    simp only [Node.step, hst, Res.bind_ok, Res.pure_eq]
  have hl := step_ledger (b := b) (l := ⟨[.node, .controller] ++ ks.map ObserverRef.user, []⟩) (fun _ => htr₁) hobs₁
    (by unfold servers; rw [htr₁]; simp) hstep
  have hnr : n₁.isRunning = false := by unfold Node.isRunning; rw [htr₁]; rfl
  have hr := (C42_start menv uenv ok _ c.node outs₀ hst).1
  have hso : s.observers = [.node, .controller] ++ ks.map ObserverRef.user := by
    rw [hl.2.2 s hs]; simp [Ledger.step, hr, hnr]
  refine ⟨hso, fun h h' env evs outs hserve => ?_⟩
  rw [C45_calls _ env h h' _ outs hserve, hso]
  have hu : users ([.node, .controller] ++ ks.map ObserverRef.user) = ks := users_map ks
  rw [hu]

/-! ### Examples -/

/-- One interface on which everything works. -/
def exIf : IfOutcome := ⟨.v4 0xC0A80002, fun _ => true, true⟩

/-- C43 for a node: starting a stopped node succeeds exactly when a multicast and a unicast server can be set up and the
announcement goes out on every multicast server; if the transport came up the node is running whatever `start` returned
(`C42_failed_start`), otherwise nothing is left behind. This holds after every history of a new node (passive handlers,
no tampering with the node profile, see `ProfileSafe`). -/
theorem C43_node_start (b : Build) (ω₀ : HashOrder) (db : Database) (hdb : standardDb b ω₀ = .ok db)
    (uuid₁ uuid₂ : List UInt8) (hu₁ : uuid₁.length = 16) (hu₂ : uuid₂.length = 16) (ω : HashOrder) (app : S)
    (n₀ n : Node S) (hnew : Node.new b db uuid₁ uuid₂ ω app = .ok n₀) (ops : List (Op S)) (outs₀ : List Out)
    (hop : ∀ op ∈ ops, ProfileSafe op) (hrun : n₀.run b ops = .ok (n, outs₀)) (hr : n.isRunning = false)
    (menv uenv : List IfOutcome) (h4 : ∀ e ∈ menv, IsV4 e.addr) (ok : Nat → Bool) :
    ∃ r n' outs, n.start menv uenv ok = .ok (r, n', outs) ∧
      (n'.isRunning = true ↔ (∃ e ∈ menv, CanMulticast e) ∧ ∃ e ∈ uenv, CanUnicast e) ∧
      (r = true ↔ n'.isRunning = true ∧ ∀ i, i < n'.transport.mcast.length → ok i = true) ∧
      (n'.isRunning = false → n'.transport = ⟨[], []⟩ ∧ outs = []) := by
  obtain ⟨n₀', hn₀, hinv₀, _, hobs, _, htr, _⟩ := newNode_inv hdb hu₁ hu₂ ω app
  rw [hnew] at hn₀
  simp only [Res.ok.injEq] at hn₀
  subst hn₀
  have hinv := (run_inv hinv₀ hop hrun).1
  have hcl := (C45_history (b := b) ops n₀ n outs₀ ⟨[], []⟩ (fun _ => htr) hobs
    (by unfold servers; rw [htr]; simp [Manager.new]) hrun).2.2
  have hn := hcl hr
  obtain ⟨r, m, hm, h1, h2, _, h3⟩ := C43_start menv uenv h4
  have ht : Node.startTransport menv uenv n.transport = .ok (r, m) := by
    unfold Node.startTransport
    rw [hn]
    exact hm
  obtain ⟨⟨r', n', outs⟩, hst⟩ : ∃ x, n.start menv uenv ok = .ok x := by
    unfold Node.start
    rw [ht]
    simp only [Res.bind_ok]
    split
    · exact ⟨_, rfl⟩
    · split <;> exact ⟨_, rfl⟩
  refine ⟨r', n', outs, hst, ?_⟩
  obtain ⟨up, m', hm', hc⟩ := start_result hst
  rw [ht] at hm'
  simp only [Res.ok.injEq, Prod.mk.injEq] at hm'
  obtain ⟨rfl, rfl⟩ := hm'
  rcases hc with ⟨rfl, rfl, rfl, rfl⟩ | ⟨rfl, n₁, hn₁, hr', rfl, rfl⟩
  · have hmf : m = ⟨[], []⟩ := h3 rfl
    subst hmf
    refine ⟨⟨fun h => absurd h (by simp [Node.isRunning, Manager.isRunning]), fun h => absurd (h1.mpr h) (by simp)⟩, ⟨fun h => absurd h (by simp),
      fun h => absurd h.1 (by simp [Node.isRunning, Manager.isRunning])⟩, fun _ => ⟨rfl, rfl⟩⟩
  · have htr' : (n₁.announce ok).2.1.transport = n₁.transport := by rw [(announce_frame ok n₁).1]
    have hrun' : (n₁.announce ok).2.1.isRunning = true := by
      unfold Node.isRunning
      rw [htr', hn₁]
      show (n.observers.foldl Manager.addObserver m).isRunning = true
      rw [addObservers_isRunning]
      exact h2.mp rfl
    refine ⟨⟨fun _ => h1.mp rfl, fun _ => hrun'⟩, ?_, fun h => absurd h (by rw [hrun']; simp)⟩
    rw [htr']
    obtain ⟨np, ds, ho, hnc, _, hdesc⟩ := hinv.shape
    obtain ⟨p, hp, _⟩ := hdesc 0xD5 _ rfl
    have hfind : findObject n₁.objects nodeProfileCode = some (mapProperties startedProperty np) := by
      rw [hn₁]
      simp only [ho, List.map_cons]
      unfold findObject
      rw [List.find?_cons]
      simp only [mapProperties_code, hnc]
      rfl
    have hpr : (mapProperties startedProperty np).findProperty 0xD5 = some (startedProperty 0xD5 p) := by
      show (np.properties 0xD5).map _ = _
      rw [hp]; rfl
    have hann : (n₁.announce ok).1 = (n₁.notify ok (Node.announceMessage (mapProperties startedProperty np)
        (startedProperty 0xD5 p))).1 := by
      unfold Node.announce
      rw [hfind]
      simp only [hpr]
    rw [hr', hann, hrun']
    simp only [true_and]
    unfold Node.notify
    simp only []
    rw [(C44_notify_partial ok _ _).1, Node.updateTid_transport]

/-- Non-vacuity of C43_node_start: the history is empty; one working interface. -/
example : (∀ e ∈ [exIf], IsV4 e.addr) ∧ (∃ e ∈ [exIf], CanMulticast e) ∧ (∃ e ∈ [exIf], CanUnicast e) := by
  have h4 : IsV4 exIf.addr := ⟨_, rfl⟩
  have hb : CanBind exIf := ⟨0, by decide, rfl⟩
  exact ⟨by simp [h4], ⟨exIf, by simp, h4, hb, rfl⟩, ⟨exIf, by simp, h4, hb⟩⟩

/-- Non-vacuity of C45_controller and C45_controller_observers: every new controller starts on such an interface, with
any observers. -/
example (b : Build) (ω₀ : HashOrder) (db : Database) (hdb : standardDb b ω₀ = .ok db)
    (uuid₁ uuid₂ : List UInt8) (hu₁ : uuid₁.length = 16) (hu₂ : uuid₂.length = 16) (ω : HashOrder) (app : S)
    (n₀ : Node S) (hnew : Node.new b db uuid₁ uuid₂ ω app = .ok n₀) (ks : List Nat) :
    ∃ c outs, (ks.foldl (fun h k => h.addObserver (.user k)) (Host.newController n₀)).start [exIf] [exIf] allOk =
      .ok (true, c, outs) ∧ servers c.node ≠ [] := by
  have h4 : IsV4 exIf.addr := ⟨_, rfl⟩
  have hb : CanBind exIf := ⟨0, by decide, rfl⟩
  have hnr : n₀.isRunning = false := by
    obtain ⟨n₀', hn₀, _, _, _, _, htr, _⟩ := newNode_inv hdb hu₁ hu₂ ω app
    rw [hnew] at hn₀
    simp only [Res.ok.injEq] at hn₀
    subst hn₀
    unfold Node.isRunning; rw [htr]; rfl
  let ops : List (Op S) := (ObserverRef.node :: ObserverRef.controller :: ks.map ObserverRef.user).map Op.addObserver
  have hrun : ∀ (os : List ObserverRef) (m : Node S), m.run b (os.map Op.addObserver) =
      .ok ({ m with observers := m.observers ++ os }, []) := by
    intro os
    induction os with
    | nil => intro m; simp [Node.run]
    | cons o os ih =>
      intro m
      simp only [List.map_cons, Node.run, Node.step, Res.bind_ok, ih, Res.pure_eq]
      simp [Node.addObserver]
  have hr₀ := hrun (ObserverRef.node :: ObserverRef.controller :: ks.map ObserverRef.user) n₀
  obtain ⟨r, n', outs, hst, h1, h2, _⟩ := C43_node_start b ω₀ db hdb uuid₁ uuid₂ hu₁ hu₂ ω app n₀ _ hnew _ []
    (by intro op hop; obtain ⟨o, _, rfl⟩ := List.mem_map.mp hop; trivial) hr₀ hnr [exIf] [exIf] (by simp [h4]) allOk
  have hrn := h1.mpr ⟨⟨exIf, by simp, h4, hb, rfl⟩, ⟨exIf, by simp, h4, hb⟩⟩
  have hrt := h2.mpr ⟨hrn, fun _ _ => rfl⟩
  subst hrt
  refine ⟨{ (ks.foldl (fun h k => h.addObserver (.user k)) (Host.newController n₀)) with node := n' }, outs, ?_, ?_⟩
  · unfold Host.start
    rw [addUsers_node]
    have : ({ (Host.newController n₀).node with
        observers := (Host.newController n₀).node.observers ++ ks.map ObserverRef.user } : Node S) =
        { n₀ with observers := n₀.observers ++ (ObserverRef.node :: ObserverRef.controller :: ks.map ObserverRef.user) } := by
      simp [Host.newController, controllerNodeNew, Node.addObserver]
    rw [this, hst]
    rfl
  · have := (isRunning_iff n'.transport).mp hrn
    unfold servers
    simp [this.1]

/-- A node without objects but with the transport down. -/
def exBare : Node Unit := ⟨Manager.new, [], 5, none, 0, [], [], ()⟩

/-- A history that is not orderly: register 1, start, register 2, start again. The node has no profile, so
each start returns false although the node is running. -/
example : (Ledger.run .dev ⟨[], []⟩ exBare
      [.addObserver (.user 1), .start [exIf] [exIf] allOk, .addObserver (.user 2), .start [exIf] [exIf] allOk]).called =
    [.user 1, .user 1, .user 2] := by decide +kernel

/-- Non-vacuity of C45_exactly_once_partial and the theorems after it: on every new node, registering an
observer and then starting (one interface) is orderly and leaves the node running with two servers that call
this observer; registering another one then is not orderly. -/
example (b : Build) (ω₀ : HashOrder) (db : Database) (hdb : standardDb b ω₀ = .ok db)
    (uuid₁ uuid₂ : List UInt8) (hu₁ : uuid₁.length = 16) (hu₂ : uuid₂.length = 16) (ω : HashOrder) (app : S) :
    ∃ n₀, Node.new b db uuid₁ uuid₂ ω app = .ok n₀ ∧
      ∃ n outs, n₀.run b [.addObserver (.user 1), .start [exIf] [exIf] allOk] = .ok (n, outs) ∧
        n.isRunning = true ∧ (servers n).map (fun s => s.observers) = [[.user 1], [.user 1]] ∧
        Orderly b n₀ [.addObserver (.user 1), .start [exIf] [exIf] allOk] ∧
        ¬ Orderly b n₀ [.addObserver (.user 1), .start [exIf] [exIf] allOk, .addObserver (.user 2)] := by
  obtain ⟨n₀, h1, _, _, hobs, _, htr, _⟩ := newNode_inv hdb hu₁ hu₂ ω app
  refine ⟨n₀, h1, ?_⟩
  have ht : Node.startTransport [exIf] [exIf] Manager.new =
      .ok (true, ⟨[Server.started exIf.addr], [Server.started exIf.addr]⟩) := by rfl
  have hnr : n₀.isRunning = false := by unfold Node.isRunning; rw [htr]; rfl
  obtain ⟨⟨r, n, outs⟩, hst⟩ : ∃ x, (n₀.addObserver (.user 1)).start [exIf] [exIf] allOk = .ok x := by
    unfold Node.start
    have : (n₀.addObserver (.user 1)).transport = Manager.new := htr
    rw [this, ht]
    simp only [Res.bind_ok, Bool.not_true, Bool.false_eq_true, if_false]
    split <;> exact ⟨_, rfl⟩
  have hstep : (n₀.addObserver (.user 1)).step b (.start [exIf] [exIf] allOk) = .ok (n, outs) := by
    simp only [Node.step, hst, Res.bind_ok, Res.pure_eq]
  have hrun : n.transport =
      ⟨[⟨exIf.addr, [.user 1], .running⟩], [⟨exIf.addr, [.user 1], .running⟩]⟩ := by
    obtain ⟨up, m, hm, hcase⟩ := start_result hst
    have : (n₀.addObserver (.user 1)).transport = Manager.new := htr
    rw [this, ht] at hm
    simp only [Res.ok.injEq, Prod.mk.injEq] at hm
    obtain ⟨rfl, rfl⟩ := hm
    rcases hcase with ⟨h, _⟩ | ⟨_, n₁, hn₁, _, hn, _⟩
    · simp at h
    · rw [hn, (announce_frame allOk n₁).1, hn₁]
      simp only [Node.addObserver, hobs]
      rfl
  have hr : n.isRunning = true := by unfold Node.isRunning; rw [hrun]; rfl
  have hfirst : n₀.step b (.addObserver (.user 1)) = .ok (n₀.addObserver (.user 1), []) := rfl
  refine ⟨n, outs, ?_, hr, ?_, ?_, ?_⟩
  · simp only [Node.run, hfirst, hstep, Res.bind_ok, Res.pure_eq, List.nil_append, List.append_nil]
  · unfold servers; rw [hrun]; rfl
  · simp only [Orderly, hfirst, hstep, and_true]
    exact ⟨hnr, hnr⟩
  · simp only [Orderly, hfirst, hstep, and_true, hr]
    simp

end Uecho
