import Verif.Spec.Sockets
import Verif.Props.Builder
import Verif.Props.Transport
/-!
# The log of the transport: C93
-/
namespace Uecho
open Spec
open Sock

/-! ## The transport without sockets and log -/

/-- A receiver thread takes an event, without sockets and log: `recvLoop`. -/
def Server.takes (e : SocketEvent) (s : Server) : Server × List (Message × List ObserverRef) :=
  match s.thread with
  | .running =>
    match recvLoop [e] with
    | (ms, .running) => (s, ms.map (fun m => (m, s.observers)))
    | (_, .ended) => ({ s with thread := .ended }, [])
    | (_, .panicked) => ({ s with thread := .panicked }, [])
  | _ => (s, [])

def takesAt (e : SocketEvent) (k : Nat) (ss : List Server) : List Server × List (Message × List ObserverRef) :=
  match ss[k]? with
  | none => (ss, [])
  | some s => (ss.set k (s.takes e).1, (s.takes e).2)

/-- A step of a history by the functions of `Model/Transport.lean`. -/
def Manager.tstep (m : Manager) : TOp → Res (Manager × Seen)
  | .start menv uenv => do
    let r ← m.start menv uenv
    return (r.2, ⟨some r.1, [], []⟩)
  | .stop => do
    let r ← m.stop
    return (r.2, ⟨some r.1, [], []⟩)
  | .addObserver o => .ok (m.addObserver o, ⟨some true, [], []⟩)
  | .send ok to msg => .ok (m, ⟨some (m.send ok to msg).1, (m.send ok to msg).2, []⟩)
  | .notify ok msg => .ok (m, ⟨some (m.notify ok msg).1, (m.notify ok msg).2, []⟩)
  | .hasInterface a => .ok (m, ⟨some (m.hasInterface a), [], []⟩)
  | .event true k e => .ok ({ m with mcast := (takesAt e k m.mcast).1 }, ⟨none, [], (takesAt e k m.mcast).2⟩)
  | .event false k e => .ok ({ m with ucast := (takesAt e k m.ucast).1 }, ⟨none, [], (takesAt e k m.ucast).2⟩)

def Manager.trun (m : Manager) : List TOp → Res (Manager × List Seen)
  | [] => .ok (m, [])
  | op :: ops => do
    let r ← m.tstep op
    let q ← r.1.trun ops
    return (q.1, r.2 :: q.2)

/-- The server of the model with sockets for one without: bound to the address of the interface. -/
def conc (s : Server) : Srv := ⟨⟨true, some ⟨s.ifaddr, port⟩⟩, s.observers, s.thread⟩
def concM (m : Manager) : Mgr := ⟨m.ucast.map conc, m.mcast.map conc⟩

theorem logged_ok (lv : Nat) (l : Level) (x : Line) :
    logged lv l (.ok x) = .ok (if l.num ≤ lv then [x] else []) := by
  unfold logged; split <;> simp

/-! ## Reading the log -/

/-- A log that does not begin with a complaint. -/
def Fresh : List Line → Prop
  | .sendFailed _ :: _ => False
  | .mcstFailed _ :: _ => False
  | _ => True

theorem sentOf_append : ∀ (l l' : List Line), Fresh l' → sentOf (l ++ l') = sentOf l ++ sentOf l'
  | [], _, _ => rfl
  | x :: xs, l', h => by
    have ih := sentOf_append xs l' h
    cases x with
    | send f t y =>
      cases xs with
      | nil => cases l' with
        | nil => rfl
        | cons z zs => cases z <;> first | exact h.elim | rfl
      | cons z zs =>
        cases z <;> simp only [sentOf, List.cons_append] at ih ⊢ <;> first | exact ih | rw [ih]
    | mcst f t y =>
      cases xs with
      | nil => cases l' with
        | nil => rfl
        | cons z zs => cases z <;> first | exact h.elim | rfl
      | cons z zs =>
        cases z <;> simp only [sentOf, List.cons_append] at ih ⊢ <;> first | exact ih | rw [ih]
    | _ => simpa only [sentOf, List.cons_append] using ih

theorem Fresh.append {l l' : List Line} (h : Fresh l) (h' : Fresh l') : Fresh (l ++ l') := by
  cases l with
  | nil => exact h'
  | cons x xs => cases x <;> exact h

theorem receivedOf_append (l l' : List Line) : receivedOf (l ++ l') = receivedOf l ++ receivedOf l' := by
  simp [receivedOf]

theorem rejectedOf_append (l l' : List Line) : rejectedOf (l ++ l') = rejectedOf l ++ rejectedOf l' := by
  simp [rejectedOf]

/-- A log about something else. -/
def Quiet (l : List Line) : Prop := Fresh l ∧ sentOf l = [] ∧ receivedOf l = []

theorem Quiet.nil : Quiet [] := ⟨trivial, rfl, rfl⟩

theorem Quiet.append {l l' : List Line} (h : Quiet l) (h' : Quiet l') : Quiet (l ++ l') :=
  ⟨h.1.append h'.1, by rw [sentOf_append _ _ h'.1, h.2.1, h'.2.1]; rfl, by rw [receivedOf_append, h.2.2, h'.2.2]; rfl⟩

/-! ## Starting -/

theorem bindUnicast_conc (lv : Nat) (e : IfOutcome) :
    ∃ s l, Srv.new.bindUnicast lv e = .ok (unicastBind e, s, l) ∧ (unicastBind e = true → s = conc (Server.started e.addr)) ∧
      Quiet l := by
  unfold Srv.bindUnicast unicastBind
  cases h : e.addr with
  | v6 a =>
    simp only [logged_ok, Res.bind_ok, Res.pure_eq]
    refine ⟨_, _, rfl, nofun, ?_⟩
    split
    · exact ⟨trivial, rfl, rfl⟩
    · exact Quiet.nil
  | v4 a =>
    simp only [logged_ok, Res.bind_ok, Res.pure_eq, UdpSocket.bind]
    cases hb : bindUdp e.bindOk with
    | false =>
      refine ⟨_, _, rfl, nofun, ?_⟩
      split
      · exact ⟨trivial, rfl, rfl⟩
      · exact Quiet.nil
    | true =>
      refine ⟨_, _, rfl, fun _ => rfl, ?_⟩
      split
      · exact ⟨trivial, rfl, rfl⟩
      · exact Quiet.nil

theorem bindMulticast_conc (lv : Nat) (e : IfOutcome) :
    (multicastBind e = .panic ∧ Srv.new.bindMulticast lv e = .panic) ∨
    ∃ r s l, multicastBind e = .ok r ∧ Srv.new.bindMulticast lv e = .ok (r, s, l) ∧
      (r = true → s = conc (Server.started e.addr)) ∧ Quiet l := by
  unfold Srv.bindMulticast multicastBind
  simp only [logged_ok, Res.bind_ok, Res.pure_eq, UdpSocket.bind]
  have q : ∀ x : Line, (x = .bindMct ⟨.v4 0, port⟩ ∨ x = .bindMct ⟨.v6 0, port⟩ ∨ ∃ a, x = .joined a) →
      Quiet (if Level.debug.num ≤ lv then [x] else []) := by
    rintro x (rfl | rfl | ⟨a, rfl⟩) <;> split <;> first | exact Quiet.nil | exact ⟨trivial, rfl, rfl⟩
  cases hb : bindUdp e.bindOk with
  | false =>
    right
    cases h : e.addr <;> exact ⟨_, _, _, rfl, rfl, nofun, q _ (by simp)⟩
  | true =>
    cases h : e.addr with
    | v6 a => left; exact ⟨rfl, rfl⟩
    | v4 a =>
      right
      cases hj : e.joinOk with
      | false => exact ⟨_, _, _, rfl, rfl, nofun, q _ (by simp)⟩
      | true => exact ⟨_, _, _, rfl, rfl, fun _ => rfl, (q _ (by simp)).append (q _ (by simp))⟩

theorem startUnicastLoop_conc (lv : Nat) : ∀ (env : List IfOutcome) (acc : List Server),
    ∃ l, Sock.startUnicastLoop lv env (acc.map conc) = .ok ((env.foldl (fun acc e =>
      if !unicastBind e then acc else acc ++ [Server.started e.addr]) acc).map conc, l) ∧ Quiet l
  | [], acc => ⟨[], rfl, Quiet.nil⟩
  | e :: es, acc => by
    obtain ⟨s, l, h1, h2, h3⟩ := bindUnicast_conc lv e
    simp only [Sock.startUnicastLoop, h1, Res.bind_ok, List.foldl_cons]
    cases hb : unicastBind e with
    | false =>
      obtain ⟨l', g1, g2⟩ := startUnicastLoop_conc lv es acc
      simp only [Bool.not_false, if_true, g1, Res.bind_ok, Res.pure_eq]
      exact ⟨_, rfl, h3.append g2⟩
    | true =>
      obtain ⟨l', g1, g2⟩ := startUnicastLoop_conc lv es (acc ++ [Server.started e.addr])
      simp only [Bool.not_true, Bool.false_eq_true, if_false, h2 hb]
      rw [List.map_append] at g1
      simp only [List.map_cons, List.map_nil] at g1
      simp only [g1, Res.bind_ok, Res.pure_eq]
      exact ⟨_, rfl, h3.append g2⟩

theorem startMulticastLoop_conc (lv : Nat) : ∀ (env : List IfOutcome) (acc : List Server),
    (Uecho.startMulticastLoop env acc = .panic ∧ Sock.startMulticastLoop lv env (acc.map conc) = .panic) ∨
    ∃ ss l, Uecho.startMulticastLoop env acc = .ok ss ∧ Sock.startMulticastLoop lv env (acc.map conc) = .ok (ss.map conc, l) ∧
      Quiet l
  | [], acc => Or.inr ⟨acc, [], rfl, rfl, Quiet.nil⟩
  | e :: es, acc => by
    simp only [Sock.startMulticastLoop, Uecho.startMulticastLoop]
    rcases bindMulticast_conc lv e with ⟨h1, h2⟩ | ⟨r, s, l, h0, h1, h2, h3⟩
    · left; simp [h1, h2]
    · simp only [h0, h1, Res.bind_ok]
      cases r with
      | false =>
        simp only [Bool.not_false, if_true]
        rcases startMulticastLoop_conc lv es acc with ⟨g1, g2⟩ | ⟨ss, l', g0, g1, g2⟩
        · left; simp [g1, g2]
        · right
          simp only [g0, g1, Res.bind_ok, Res.pure_eq]
          exact ⟨_, _, rfl, rfl, h3.append g2⟩
      | true =>
        simp only [Bool.not_true, Bool.false_eq_true, if_false, h2 rfl]
        have := startMulticastLoop_conc lv es (acc ++ [Server.started e.addr])
        rw [List.map_append] at this
        simp only [List.map_cons, List.map_nil] at this
        rcases this with ⟨g1, g2⟩ | ⟨ss, l', g0, g1, g2⟩
        · left; simp [g1, g2]
        · right
          simp only [g0, g1, Res.bind_ok, Res.pure_eq]
          exact ⟨_, _, rfl, rfl, h3.append g2⟩

theorem startUnicast_conc (lv : Nat) (env : List IfOutcome) (ss : List Server) :
    ∃ l, Sock.startUnicast lv env (ss.map conc) =
      .ok ((Uecho.startUnicast env ss).1, (Uecho.startUnicast env ss).2.map conc, l) ∧ Quiet l := by
  unfold Sock.startUnicast Uecho.startUnicast
  cases ss with
  | cons a as => exact ⟨[], rfl, Quiet.nil⟩
  | nil =>
    obtain ⟨l, h1, h2⟩ := startUnicastLoop_conc lv env []
    simp only [List.map_nil] at h1
    simp only [List.map_nil, List.isEmpty_nil, Bool.not_true, Bool.false_eq_true, if_false, h1, Res.bind_ok, Res.pure_eq,
      List.isEmpty_map]
    exact ⟨l, rfl, h2⟩

theorem startMulticast_conc (lv : Nat) (env : List IfOutcome) (ss : List Server) :
    (Uecho.startMulticast env ss = .panic ∧ Sock.startMulticast lv env (ss.map conc) = .panic) ∨
    ∃ r ss' l, Uecho.startMulticast env ss = .ok (r, ss') ∧ Sock.startMulticast lv env (ss.map conc) = .ok (r, ss'.map conc, l) ∧
      Quiet l := by
  unfold Sock.startMulticast Uecho.startMulticast
  cases ss with
  | cons a as => right; exact ⟨_, _, [], rfl, rfl, Quiet.nil⟩
  | nil =>
    simp only [List.map_nil, List.isEmpty_nil, Bool.not_true, Bool.false_eq_true, if_false]
    rcases startMulticastLoop_conc lv env [] with ⟨h1, h2⟩ | ⟨ss', l, h0, h1, h2⟩
    · left
      simp only [List.map_nil] at h2
      rw [h1, h2]; exact ⟨rfl, rfl⟩
    · right
      simp only [List.map_nil] at h1
      simp only [h0, h1, Res.bind_ok, Res.pure_eq, List.isEmpty_map]
      exact ⟨_, _, _, rfl, rfl, h2⟩

theorem stopAll_conc : ∀ ss : List Server, stopAll (ss.map conc) = stopServers ss
  | [] => rfl
  | s :: ss => by
    simp only [List.map_cons, stopAll, stopServers, stopAll_conc ss]
    rfl

theorem stop_conc (m : Manager) :
    (m.stop = .panic ∧ (concM m).stop = .panic) ∨ ∃ r m', m.stop = .ok (r, m') ∧ (concM m).stop = .ok (r, concM m') := by
  simp only [Manager.stop, Mgr.stop, concM, stopAll_conc]
  cases stopServers m.ucast with
  | panic => left; exact ⟨rfl, rfl⟩
  | ok r =>
    cases stopServers m.mcast with
    | panic => left; exact ⟨rfl, rfl⟩
    | ok r' => right; exact ⟨_, _, rfl, rfl⟩

theorem start_conc (lv : Nat) (menv uenv : List IfOutcome) (m : Manager) :
    (m.start menv uenv = .panic ∧ (concM m).start lv menv uenv = .panic) ∨
    ∃ r m' l, m.start menv uenv = .ok (r, m') ∧ (concM m).start lv menv uenv = .ok (r, concM m', l) ∧ Quiet l := by
  have hrun : (concM m).isRunning = m.isRunning := by
    simp [Mgr.isRunning, Manager.isRunning, concM]
  simp only [Manager.start, Mgr.start, hrun]
  cases hr : m.isRunning with
  | true => right; exact ⟨_, _, _, rfl, rfl, Quiet.nil⟩
  | false =>
    simp only [Bool.false_eq_true, if_false]
    rcases startMulticast_conc lv menv m.mcast with ⟨h1, h2⟩ | ⟨r, ss, l, h1, h2, h3⟩
    · left
      simp only [concM]
      rw [h1, h2]; exact ⟨rfl, rfl⟩
    · simp only [concM]
      rw [h1, h2]
      simp only [Res.bind_ok]
      cases r with
      | false =>
        simp only [Bool.not_false, if_true]
        have hc : ({ ucast := m.ucast.map conc, mcast := ss.map conc } : Mgr) = concM { ucast := m.ucast, mcast := ss } := rfl
        rw [hc]
        rcases stop_conc { ucast := m.ucast, mcast := ss } with ⟨g1, g2⟩ | ⟨r, m', g1, g2⟩
        · left; rw [g1, g2]; exact ⟨rfl, rfl⟩
        · right; rw [g1, g2]; exact ⟨_, _, _, rfl, rfl, h3⟩
      | true =>
        simp only [Bool.not_true, Bool.false_eq_true, if_false]
        obtain ⟨l', g1, g2⟩ := startUnicast_conc lv uenv m.ucast
        rw [g1]
        simp only [Res.bind_ok]
        have hc : ({ ucast := (Uecho.startUnicast uenv m.ucast).2.map conc, mcast := ss.map conc } : Mgr) =
            concM { ucast := (Uecho.startUnicast uenv m.ucast).2, mcast := ss } := rfl
        rw [hc]
        cases (Uecho.startUnicast uenv m.ucast).1 with
        | false =>
          simp only [Bool.not_false, if_true]
          rcases stop_conc { ucast := (Uecho.startUnicast uenv m.ucast).2, mcast := ss } with ⟨k1, k2⟩ | ⟨r, m', k1, k2⟩
          · left; rw [k1, k2]; exact ⟨rfl, rfl⟩
          · right; rw [k1, k2]; exact ⟨_, _, _, rfl, rfl, h3.append g2⟩
        | true => right; exact ⟨_, _, _, rfl, rfl, h3.append g2⟩

/-! ## Sending -/

/-- What a log says about transmissions and received messages. -/
def Tells (l : List Line) (txs : List Tx) (handed : List (Message × List ObserverRef)) : Prop :=
  Fresh l ∧ (sentOf l).map (fun x => (x.1, x.2.1, unhex x.2.2)) = txs.map (fun t => (⟨t.iface, 3610⟩, t.to, some t.bytes)) ∧
  (receivedOf l).map (fun x => (x.1, unhex x.2)) = handed.map (fun h => (h.1.sender, some h.1.bytes))

theorem Quiet.tells {l : List Line} (h : Quiet l) : Tells l [] [] := ⟨h.1, by rw [h.2.1]; rfl, by rw [h.2.2]; rfl⟩

theorem Tells.append {l l' : List Line} {t t' : List Tx} {r r' : List (Message × List ObserverRef)} (h : Tells l t r)
    (h' : Tells l' t' r') : Tells (l ++ l') (t ++ t') (r ++ r') := by
  refine ⟨h.1.append h'.1, ?_, ?_⟩
  · rw [sentOf_append _ _ h'.1, List.map_append, List.map_append, h.2.1, h'.2.1]
  · rw [receivedOf_append, List.map_append, List.map_append, h.2.2, h'.2.2]

theorem send_conc (lv : Nat) (ok : Bool) (to : SocketAddr) (msg : Message) (s : Server) :
    ∃ l, (conc s).send lv ok to msg = .ok (ok, if ok then [⟨s.ifaddr, to, msg.bytes⟩] else [], l) ∧
      (3 ≤ lv → Tells l (if ok then [⟨s.ifaddr, to, msg.bytes⟩] else []) []) := by
  simp only [Srv.send, conc, UdpSocket.localAddr, unwrap, Res.bind_ok, Res.pure_eq, logged_ok, UdpSocket.sendTo,
    Bool.not_true, Bool.false_eq_true, if_false]
  cases ok with
  | true =>
    refine ⟨_, rfl, fun h => ?_⟩
    rw [if_pos (by simpa [Level.num] using h)]
    refine ⟨trivial, ?_, rfl⟩
    simp [sentOf, (C62_display msg).1, port]
  | false =>
    refine ⟨_, rfl, fun h => ?_⟩
    rw [if_pos (by simpa [Level.num] using h), if_pos (by simp [Level.num]; omega)]
    exact ⟨trivial, rfl, rfl⟩

theorem notify_conc (lv : Nat) (ok : Bool) (msg : Message) (s : Server) :
    ∃ l, (conc s).notify lv ok msg = .ok (ok, if ok then [⟨s.ifaddr, multicastAddr, msg.bytes⟩] else [], l) ∧
      (3 ≤ lv → Tells l (if ok then [⟨s.ifaddr, multicastAddr, msg.bytes⟩] else []) []) := by
  simp only [Srv.notify, conc, UdpSocket.localAddr, unwrap, Res.bind_ok, Res.pure_eq, logged_ok, UdpSocket.sendTo,
    Bool.not_true, Bool.false_eq_true, if_false]
  cases ok with
  | true =>
    refine ⟨_, rfl, fun h => ?_⟩
    rw [if_pos (by simpa [Level.num] using h)]
    refine ⟨trivial, ?_, rfl⟩
    simp [sentOf, (C62_display msg).1, port]
  | false =>
    refine ⟨_, rfl, fun h => ?_⟩
    rw [if_pos (by simpa [Level.num] using h), if_pos (by simp [Level.num]; omega)]
    exact ⟨trivial, rfl, rfl⟩

theorem sendLoop_conc (lv : Nat) (ok : Nat → Bool) (to : SocketAddr) (msg : Message) : ∀ (i : Nat) (ss : List Server),
    ∃ l, Mgr.sendLoop lv ok to msg i (ss.map conc) =
        .ok ((Manager.sendLoop ok to msg i ss).1, (Manager.sendLoop ok to msg i ss).2, l) ∧
      (3 ≤ lv → Tells l (Manager.sendLoop ok to msg i ss).2 [])
  | _, [] => ⟨[], rfl, fun _ => Quiet.nil.tells⟩
  | i, s :: ss => by
    obtain ⟨l, h1, h2⟩ := send_conc lv (ok i) to msg s
    obtain ⟨l', g1, g2⟩ := sendLoop_conc lv ok to msg (i + 1) ss
    simp only [List.map_cons, Mgr.sendLoop, Manager.sendLoop, h1, Res.bind_ok]
    cases hok : ok i with
    | true =>
      rw [hok] at h2
      exact ⟨l, rfl, h2⟩
    | false =>
      rw [hok] at h2
      simp only [Bool.false_eq_true, if_false, g1, Res.bind_ok, Res.pure_eq, List.nil_append]
      exact ⟨_, rfl, fun h => (h2 h).append (g2 h)⟩

theorem notifyLoop_conc (lv : Nat) (ok : Nat → Bool) (msg : Message) : ∀ (i : Nat) (ss : List Server),
    ∃ l, Mgr.notifyLoop lv ok msg i (ss.map conc) =
        .ok ((Manager.notifyLoop ok msg i ss).1, (Manager.notifyLoop ok msg i ss).2, l) ∧
      (3 ≤ lv → Tells l (Manager.notifyLoop ok msg i ss).2 [])
  | _, [] => ⟨[], rfl, fun _ => Quiet.nil.tells⟩
  | i, s :: ss => by
    obtain ⟨l, h1, h2⟩ := notify_conc lv (ok i) msg s
    obtain ⟨l', g1, g2⟩ := notifyLoop_conc lv ok msg (i + 1) ss
    simp only [List.map_cons, Mgr.notifyLoop, Manager.notifyLoop, h1, Res.bind_ok]
    cases hok : ok i with
    | false =>
      rw [hok] at h2
      exact ⟨l, rfl, h2⟩
    | true =>
      rw [hok] at h2
      simp only [Bool.not_true, Bool.false_eq_true, if_false, if_true, g1, Res.bind_ok, Res.pure_eq]
      exact ⟨_, rfl, fun h => (h2 h).append (g2 h)⟩

theorem hasLoop_conc (a : IpAddr) : ∀ ss : List Server, Mgr.hasLoop a (ss.map conc) = ss.any (fun s => s.ifaddr == a)
  | [] => rfl
  | s :: ss => by
    simp only [List.map_cons, Mgr.hasLoop, conc, UdpSocket.localAddr, List.any_cons]
    by_cases h : s.ifaddr = a
    · simp [h]
    · rw [if_neg h]
      have : (s.ifaddr == a) = false := by simpa using h
      rw [this, Bool.false_or]
      exact hasLoop_conc a ss

/-! ## Receiving -/

theorem take_conc (lv : Nat) (e : SocketEvent) (s : Server) :
    ∃ l, (conc s).take lv e = (conc (s.takes e).1, (s.takes e).2, l) ∧ (3 ≤ lv → Tells l [] (s.takes e).2) := by
  unfold Srv.take Server.takes
  cases ht : s.thread with
  | ended => exact ⟨[], by simp [conc, ht], fun _ => Quiet.nil.tells⟩
  | panicked => exact ⟨[], by simp [conc, ht], fun _ => Quiet.nil.tells⟩
  | running =>
    have hth : (conc s).thread = .running := ht
    simp only [hth]
    cases e with
    | timeout => exact ⟨[], rfl, fun _ => Quiet.nil.tells⟩
    | error =>
      simp only [Srv.round, conc, UdpSocket.recvFrom, Bool.not_true, Bool.false_eq_true, if_false, UdpSocket.localAddr,
        unwrap, Res.bind_ok, Res.pure_eq, logged_ok, recvLoop]
      refine ⟨_, rfl, fun h => ?_⟩
      rw [if_pos (by simp [Level.num]; omega)]
      exact ⟨trivial, rfl, rfl⟩
    | datagram bytes src =>
      simp only [Srv.round, conc, UdpSocket.recvFrom, Bool.not_true, Bool.false_eq_true, if_false, UdpSocket.localAddr,
        unwrap, Res.bind_ok, Res.pure_eq, logged_ok, recvLoop]
      cases hp : Message.parse Message.new (bytes.take maxPacketSize) with
      | panic => exact ⟨[], rfl, fun _ => Quiet.nil.tells⟩
      | ok r =>
        obtain ⟨r, msg⟩ := r
        cases r with
        | false =>
          refine ⟨_, rfl, fun h => ?_⟩
          rw [if_pos (by simp [Level.num]; omega)]
          exact ⟨trivial, rfl, rfl⟩
        | true =>
          refine ⟨_, rfl, fun h => ?_⟩
          rw [if_pos (by simpa [Level.num] using h)]
          refine ⟨trivial, rfl, ?_⟩
          simp only [receivedOf, List.filterMap_cons, List.filterMap_nil, List.map_cons, List.map_nil,
            (C62_display msg).1]
          rfl

theorem takeAt_conc (lv : Nat) (e : SocketEvent) (k : Nat) (ss : List Server) :
    ∃ l, takeAt lv e k (ss.map conc) = ((takesAt e k ss).1.map conc, (takesAt e k ss).2, l) ∧
      (3 ≤ lv → Tells l [] (takesAt e k ss).2) := by
  unfold takeAt takesAt
  rw [List.getElem?_map]
  cases h : ss[k]? with
  | none => exact ⟨[], rfl, fun _ => Quiet.nil.tells⟩
  | some s =>
    obtain ⟨l, h1, h2⟩ := take_conc lv e s
    simp only [Option.map_some, h1]
    refine ⟨l, ?_, h2⟩
    rw [List.map_set]

/-! ## Histories -/

theorem step_conc (lv : Nat) (m : Manager) (op : TOp) :
    (m.tstep op = .panic ∧ (concM m).step lv op = .panic) ∨
    ∃ m' o l, m.tstep op = .ok (m', o) ∧ (concM m).step lv op = .ok (concM m', o, l) ∧ (3 ≤ lv → Tells l o.txs o.handed) := by
  cases op with
  | start menv uenv =>
    simp only [Manager.tstep, Mgr.step]
    rcases start_conc lv menv uenv m with ⟨h1, h2⟩ | ⟨r, m', l, h1, h2, h3⟩
    · left; rw [h1, h2]; exact ⟨rfl, rfl⟩
    · right; rw [h1, h2]; exact ⟨_, _, _, rfl, rfl, fun _ => h3.tells⟩
  | stop =>
    simp only [Manager.tstep, Mgr.step]
    rcases stop_conc m with ⟨h1, h2⟩ | ⟨r, m', h1, h2⟩
    · left; rw [h1, h2]; exact ⟨rfl, rfl⟩
    · right; rw [h1, h2]; exact ⟨_, _, _, rfl, rfl, fun _ => Quiet.nil.tells⟩
  | addObserver o =>
    right
    refine ⟨_, _, _, rfl, ?_, fun _ => Quiet.nil.tells⟩
    simp [Mgr.step, Mgr.addObserver, Manager.addObserver, concM, conc, Server.addObserver, Function.comp_def]
  | send ok to msg =>
    right
    obtain ⟨l, h1, h2⟩ := sendLoop_conc lv ok to msg 0 m.ucast
    refine ⟨_, _, l, rfl, ?_, h2⟩
    simp only [Mgr.step, Mgr.send, concM, h1, Res.bind_ok, Res.pure_eq]
    rfl
  | notify ok msg =>
    right
    obtain ⟨l, h1, h2⟩ := notifyLoop_conc lv ok msg 0 m.mcast
    refine ⟨_, _, l, rfl, ?_, h2⟩
    simp only [Mgr.step, Mgr.notify, concM, h1, Res.bind_ok, Res.pure_eq]
    rfl
  | hasInterface a =>
    right
    refine ⟨_, _, _, rfl, ?_, fun _ => Quiet.nil.tells⟩
    simp only [Mgr.step, Mgr.hasInterface, Manager.hasInterface, concM, hasLoop_conc]
  | event mc k e =>
    right
    cases mc with
    | true =>
      obtain ⟨l, h1, h2⟩ := takeAt_conc lv e k m.mcast
      refine ⟨_, _, l, rfl, ?_, h2⟩
      simp only [Mgr.step, concM, h1]
    | false =>
      obtain ⟨l, h1, h2⟩ := takeAt_conc lv e k m.ucast
      refine ⟨_, _, l, rfl, ?_, h2⟩
      simp only [Mgr.step, concM, h1]

theorem run_conc : ∀ (m : Manager) (h : List (Nat × TOp)),
    (m.trun (h.map (fun x => x.2)) = .panic ∧ (concM m).run h = .panic) ∨
    ∃ m' o l, m.trun (h.map (fun x => x.2)) = .ok (m', o) ∧ (concM m).run h = .ok (concM m', o, l) ∧
      ((∀ x ∈ h, 3 ≤ x.1) → Tells l (o.flatMap (fun s => s.txs)) (o.flatMap (fun s => s.handed)))
  | m, [] => Or.inr ⟨_, _, _, rfl, rfl, fun _ => Quiet.nil.tells⟩
  | m, (lv, op) :: h => by
    simp only [List.map_cons, Manager.trun, Mgr.run]
    rcases step_conc lv m op with ⟨h1, h2⟩ | ⟨m', o, l, h1, h2, h3⟩
    · left; rw [h1, h2]; exact ⟨rfl, rfl⟩
    · rw [h1, h2]
      simp only [Res.bind_ok]
      rcases run_conc m' h with ⟨g1, g2⟩ | ⟨m'', o', l', g1, g2, g3⟩
      · left; rw [g1, g2]; exact ⟨rfl, rfl⟩
      · right
        rw [g1, g2]
        refine ⟨_, _, _, rfl, rfl, fun hl => ?_⟩
        rw [List.flatMap_cons, List.flatMap_cons]
        exact (h3 (hl (lv, op) (by simp))).append (g3 (fun x hx => hl x (by simp [hx])))

/-- C93: the log level changes nothing: two histories of a transport that differ only in the log levels (which may change
at any time) have the same results, transmissions and deliveries, and leave the transport in the same state; one panics
exactly if the other does. -/
theorem C93_transparent (h h' : List (Nat × TOp)) (he : h.map (fun x => x.2) = h'.map (fun x => x.2)) :
    unlogged (Mgr.new.run h) = unlogged (Mgr.new.run h') := by
  have : Mgr.new = concM Manager.new := rfl
  rw [this]
  rcases run_conc Manager.new h with ⟨h1, h2⟩ | ⟨m, o, l, h1, h2, _⟩ <;>
    rcases run_conc Manager.new h' with ⟨g1, g2⟩ | ⟨m', o', l', g1, g2, _⟩
  · rw [h2, g2]
  · rw [he, g1] at h1; cases h1
  · rw [he, g1] at h1; cases h1
  · rw [he, g1] at h1
    cases h1
    rw [h2, g2]
    rfl

/-- C93: if lines of level info are logged, the log tells exactly what went over the wire: the SEND and MCST lines without
a complaint after them are, in order, the datagrams transmitted, each with the address of its interface and port 3610,
its destination, and its bytes in hexadecimal; the RECV lines are, in order, the messages handed to the observers, with
their source and their encoding. -/
theorem C93_complete (h : List (Nat × TOp)) (hl : ∀ x ∈ h, 3 ≤ x.1) (m : Mgr) (seen : List Seen)
    (log : List Line) (hr : Mgr.new.run h = .ok (m, seen, log)) :
    (sentOf log).map (fun x => (x.1, x.2.1, unhex x.2.2)) =
      (seen.flatMap (fun s => s.txs)).map (fun t => (⟨t.iface, 3610⟩, t.to, some t.bytes)) ∧
    (receivedOf log).map (fun x => (x.1, unhex x.2)) =
      (seen.flatMap (fun s => s.handed)).map (fun r => (r.1.sender, some r.1.bytes)) := by
  have : Mgr.new = concM Manager.new := rfl
  rw [this] at hr
  rcases run_conc Manager.new h with ⟨h1, h2⟩ | ⟨m', o, l, h1, h2, h3⟩
  · rw [h2] at hr; cases hr
  · rw [h2] at hr
    cases hr
    exact (h3 hl).2

/-- C93, every datagram leaves one line: after any history, if a receiver thread that runs gets a datagram, then either it
hands over one message and logs one RECV line with its source, or it hands over nothing and logs one line with the source and
the bytes it read (at most 1024); or the datagram kills it (`C03_panic_characterisation`). -/
theorem C93_every_datagram (h : List (Nat × TOp)) (m : Mgr) (seen : List Seen) (log : List Line)
    (hr : Mgr.new.run h = .ok (m, seen, log)) (lv : Nat) (hl : 3 ≤ lv) (mc : Bool) (k : Nat) (s : Srv)
    (hs : (if mc then m.mcast else m.ucast)[k]? = some s) (hrun : s.thread = .running) (bytes : List UInt8)
    (src : SocketAddr) :
    ∃ m' o l, m.step lv (.event mc k (.datagram bytes src)) = .ok (m', o, l) ∧
      ((Message.parse Message.new (bytes.take 1024) = .panic ∧ o.handed = [] ∧ l = []) ∨
       (∃ x, o.handed = [(x, s.observers)] ∧ x.sender = src ∧ (receivedOf l).map (fun y => y.1) = [src] ∧ l.length = 1) ∨
       (o.handed = [] ∧ rejectedOf l = [(src, bytes.take 1024)] ∧ l.length = 1)) := by
  have hnew : Mgr.new = concM Manager.new := rfl
  rw [hnew] at hr
  rcases run_conc Manager.new h with ⟨_, h2⟩ | ⟨m', o, l, _, h2, _⟩
  · rw [h2] at hr; cases hr
  rw [h2] at hr
  cases hr
  have hin : ∃ a : Server, s = conc a := by
    cases mc <;> simp only [concM, Bool.false_eq_true, if_false, if_true, List.getElem?_map] at hs <;>
      · cases hx : (_ : List Server)[k]? with
        | none => rw [hx] at hs; simp at hs
        | some a => rw [hx] at hs; exact ⟨a, by simpa using hs.symm⟩
  obtain ⟨a, rfl⟩ := hin
  have key : ((Message.parse Message.new (bytes.take 1024) = .panic ∧
        ((conc a).take lv (.datagram bytes src)).2 = ([], [])) ∨
      (∃ x y z, ((conc a).take lv (.datagram bytes src)).2 = ([(x, a.observers)], [.recv src y z]) ∧ x.sender = src) ∨
      ∃ n, ((conc a).take lv (.datagram bytes src)).2 = ([], [.unparsed src n (bytes.take 1024)])) := by
    unfold Srv.take
    rw [hrun]
    simp only [Srv.round, conc, UdpSocket.recvFrom, Bool.not_true, Bool.false_eq_true, if_false, UdpSocket.localAddr,
      unwrap, Res.bind_ok, Res.pure_eq, logged_ok]
    have hm : maxPacketSize = 1024 := rfl
    rw [hm]
    cases hp : Message.parse Message.new (bytes.take 1024) with
    | panic => left; exact ⟨rfl, rfl⟩
    | ok r =>
      right
      obtain ⟨r, msg⟩ := r
      cases r with
      | false =>
        right
        simp only [Res.bind_ok, Bool.not_false, if_true]
        rw [if_pos (by simp [Level.num] at hl ⊢; omega)]
        exact ⟨_, rfl⟩
      | true =>
        left
        simp only [Res.bind_ok, Bool.not_true, Bool.false_eq_true, if_false]
        rw [if_pos (show Level.info.num ≤ lv from hl)]
        exact ⟨_, _, _, rfl, rfl⟩
  cases mc with
  | true =>
    simp only [if_true] at hs
    refine ⟨_, _, _, by simp only [Mgr.step, takeAt, hs]; rfl, ?_⟩
    rcases key with ⟨k1, k2⟩ | ⟨x, y, z, k1, k2⟩ | ⟨n, k1⟩
    · left; exact ⟨k1, by simp only [k2], by simp only [k2]⟩
    · right; left; exact ⟨x, by simp only [k1]; rfl, k2, by simp only [k1]; rfl, by simp only [k1]; rfl⟩
    · right; right; exact ⟨by simp only [k1], by simp only [k1]; rfl, by simp only [k1]; rfl⟩
  | false =>
    simp only [Bool.false_eq_true, if_false] at hs
    refine ⟨_, _, _, by simp only [Mgr.step, takeAt, hs]; rfl, ?_⟩
    rcases key with ⟨k1, k2⟩ | ⟨x, y, z, k1, k2⟩ | ⟨n, k1⟩
    · left; exact ⟨k1, by simp only [k2], by simp only [k2]⟩
    · right; left; exact ⟨x, by simp only [k1]; rfl, k2, by simp only [k1]; rfl, by simp only [k1]; rfl⟩
    · right; right; exact ⟨by simp only [k1], by simp only [k1]; rfl, by simp only [k1]; rfl⟩

/-- C93: the transport without sockets and log, on which all other theorems about the transport rest, is the same: every
history has the same results, transmissions and deliveries there, and the servers have the same addresses, observers and
threads, each with a socket bound to its address and port 3610. -/
theorem C93_abstraction (h : List (Nat × TOp)) :
    (Manager.new.trun (h.map (fun x => x.2)) = .panic ∧ Mgr.new.run h = .panic) ∨
    ∃ m o l, Manager.new.trun (h.map (fun x => x.2)) = .ok (m, o) ∧
      Mgr.new.run h = .ok (⟨m.ucast.map conc, m.mcast.map conc⟩, o, l) := by
  rcases run_conc Manager.new h with h1 | ⟨m, o, l, h1, h2, _⟩
  · exact Or.inl h1
  · exact Or.inr ⟨m, o, l, h1, h2⟩

/-- A frame: read property 0x80 of object 0x029001. -/
def exLogged : List UInt8 := [0x10, 0x81, 0x00, 0x01, 0x05, 0xFF, 0x01, 0x02, 0x90, 0x01, 0x62, 0x01, 0x80, 0x00]

/-- Two interfaces, of which the first cannot be used by the unicast side when it sends; a good and a bad datagram arrive;
with all levels logged, and with none. -/
def exHistory (lv : Nat) : List (Nat × TOp) :=
  [(lv, .start [⟨.v4 1, fun _ => true, true⟩, ⟨.v4 2, fun _ => true, true⟩]
        [⟨.v4 1, fun _ => true, true⟩, ⟨.v4 2, fun n => n == 2, true⟩]),
   (lv, .addObserver .node),
   (lv, .send (fun i => i == 1) ⟨.v4 9, 3610⟩ Message.new),
   (lv, .notify (fun _ => true) Message.new),
   (lv, .event true 1 (.datagram exLogged ⟨.v4 9, 3610⟩)),
   (lv, .event false 0 (.datagram [1, 2, 3] ⟨.v4 9, 3610⟩)),
   (lv, .event false 0 .error)]

example : ∃ m seen log, Mgr.new.run (exHistory 5) = .ok (m, seen, log) ∧
    (sentOf log).map (fun x => x.1) = [⟨.v4 2, 3610⟩, ⟨.v4 1, 3610⟩, ⟨.v4 2, 3610⟩] ∧
    (receivedOf log).map (fun x => unhex x.2) = [some exLogged] ∧
    rejectedOf log = [(⟨.v4 9, 3610⟩, [1, 2, 3])] ∧ log.length = 14 ∧
    (m.ucast.map (fun s => s.thread)) = [.ended, .running] := by
  refine ⟨_, _, _, rfl, ?_⟩; decide +kernel

example : ∃ m seen, Mgr.new.run (exHistory 0) = .ok (m, seen, []) ∧ (seen.flatMap (fun s => s.txs)).length = 3 := by
  refine ⟨_, _, rfl, ?_⟩; decide +kernel

end Uecho
