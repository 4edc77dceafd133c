import Verif.Props.Sockets
/-!
# The log of the transport at its levels: C93
-/
namespace Uecho
open Spec
open Sock

/-- The result with the log cut down to level `lv`. -/
def cut2 {α : Type} (lv : Nat) : Res (α × List Line) → Res (α × List Line)
  | .ok (a, l) => .ok (a, upTo lv l)
  | .panic => .panic
def cut3 {α β : Type} (lv : Nat) : Res (α × β × List Line) → Res (α × β × List Line)
  | .ok (a, b, l) => .ok (a, b, upTo lv l)
  | .panic => .panic

theorem upTo_append (lv : Nat) (l l' : List Line) : upTo lv (l ++ l') = upTo lv l ++ upTo lv l' := List.filter_append ..

/-- Compares the logs level by level. -/
macro "cuts" lv:ident : tactic => `(tactic|
  (by_cases h4 : 4 ≤ $lv <;> by_cases h3 : 3 ≤ $lv <;> by_cases h2 : 2 ≤ $lv <;> by_cases h1 : 1 ≤ $lv <;>
    first | omega | simp [h1, h2, h3, h4, cut3, upTo, lineLevel]))

theorem bindUnicast_cut (lv : Nat) (e : IfOutcome) (s : Srv) : s.bindUnicast lv e = cut3 lv (s.bindUnicast 5 e) := by
  unfold Srv.bindUnicast
  cases e.addr <;> simp only [logged_ok, Res.bind_ok, Res.pure_eq, Level.num] <;> cuts lv

theorem bindMulticast_cut (lv : Nat) (e : IfOutcome) (s : Srv) : s.bindMulticast lv e = cut3 lv (s.bindMulticast 5 e) := by
  unfold Srv.bindMulticast
  cases he : e.addr with
  | v4 a =>
    simp only [logged_ok, Res.bind_ok, Res.pure_eq, Level.num]
    generalize UdpSocket.bind s.socket _ e.bindOk = r
    generalize r.2.joinV4 _ e.joinOk = j
    cases r.1 <;> cases j.1 <;> cuts lv
  | v6 a =>
    simp only [logged_ok, Res.bind_ok, Res.pure_eq, Level.num]
    generalize UdpSocket.bind s.socket _ e.bindOk = r
    generalize r.2.joinV6 = j
    cases j with
    | panic => cases r.1 <;> cuts lv
    | ok j =>
      obtain ⟨j, k⟩ := j
      cases r.1 <;> cases j <;> cuts lv

theorem startUnicastLoop_cut (lv : Nat) : ∀ (env : List IfOutcome) (acc : List Srv),
    Sock.startUnicastLoop lv env acc = cut2 lv (Sock.startUnicastLoop 5 env acc)
  | [], acc => rfl
  | e :: es, acc => by
    unfold Sock.startUnicastLoop
    rw [bindUnicast_cut lv]
    cases Srv.new.bindUnicast 5 e with
    | panic => rfl
    | ok r =>
      simp only [cut3, Res.bind_ok]
      rw [startUnicastLoop_cut lv es]
      cases Sock.startUnicastLoop 5 es (if !r.1 then acc else acc ++ [r.2.1]) with
      | panic => rfl
      | ok q => simp [cut2, upTo_append]

theorem startMulticastLoop_cut (lv : Nat) : ∀ (env : List IfOutcome) (acc : List Srv),
    Sock.startMulticastLoop lv env acc = cut2 lv (Sock.startMulticastLoop 5 env acc)
  | [], acc => rfl
  | e :: es, acc => by
    unfold Sock.startMulticastLoop
    rw [bindMulticast_cut lv]
    cases Srv.new.bindMulticast 5 e with
    | panic => rfl
    | ok r =>
      simp only [cut3, Res.bind_ok]
      rw [startMulticastLoop_cut lv es]
      cases Sock.startMulticastLoop 5 es (if !r.1 then acc else acc ++ [r.2.1]) with
      | panic => rfl
      | ok q => simp [cut2, upTo_append]

theorem startUnicast_cut (lv : Nat) (env : List IfOutcome) (ss : List Srv) :
    Sock.startUnicast lv env ss = cut3 lv (Sock.startUnicast 5 env ss) := by
  unfold Sock.startUnicast
  split
  · rfl
  · rw [startUnicastLoop_cut lv]
    cases Sock.startUnicastLoop 5 env ss <;> simp [cut2, cut3]

theorem startMulticast_cut (lv : Nat) (env : List IfOutcome) (ss : List Srv) :
    Sock.startMulticast lv env ss = cut3 lv (Sock.startMulticast 5 env ss) := by
  unfold Sock.startMulticast
  split
  · rfl
  · rw [startMulticastLoop_cut lv]
    cases Sock.startMulticastLoop 5 env ss <;> simp [cut2, cut3]

theorem start_cut (lv : Nat) (menv uenv : List IfOutcome) (m : Mgr) :
    m.start lv menv uenv = cut3 lv (m.start 5 menv uenv) := by
  unfold Mgr.start
  split
  · rfl
  · rw [startMulticast_cut lv]
    cases Sock.startMulticast 5 menv m.mcast with
    | panic => rfl
    | ok r =>
      simp only [cut3, Res.bind_ok]
      split
      · cases Mgr.stop { m with mcast := r.2.1 } <;> simp
      · rw [startUnicast_cut lv]
        cases Sock.startUnicast 5 uenv m.ucast with
        | panic => rfl
        | ok q =>
          simp only [cut3, Res.bind_ok]
          split
          · cases Mgr.stop _ <;> simp [upTo_append]
          · simp [upTo_append]

theorem send_cut (lv : Nat) (ok : Bool) (to : SocketAddr) (msg : Message) (s : Server) :
    (conc s).send lv ok to msg = cut3 lv ((conc s).send 5 ok to msg) := by
  simp only [Srv.send, conc, UdpSocket.localAddr, unwrap, Res.bind_ok, Res.pure_eq, logged_ok, Level.num]
  cases UdpSocket.sendTo _ ok <;> simp only [Bool.not_true, Bool.not_false, Bool.false_eq_true, if_false, if_true] <;>
    cuts lv

theorem notify_cut (lv : Nat) (ok : Bool) (msg : Message) (s : Server) :
    (conc s).notify lv ok msg = cut3 lv ((conc s).notify 5 ok msg) := by
  simp only [Srv.notify, conc, UdpSocket.localAddr, unwrap, Res.bind_ok, Res.pure_eq, logged_ok, Level.num]
  cases UdpSocket.sendTo _ ok <;> simp only [Bool.not_true, Bool.not_false, Bool.false_eq_true, if_false, if_true] <;>
    cuts lv

theorem sendLoop_cut (lv : Nat) (ok : Nat → Bool) (to : SocketAddr) (msg : Message) : ∀ (i : Nat) (ss : List Server),
    Mgr.sendLoop lv ok to msg i (ss.map conc) = cut3 lv (Mgr.sendLoop 5 ok to msg i (ss.map conc))
  | _, [] => rfl
  | i, s :: ss => by
    simp only [List.map_cons, Mgr.sendLoop]
    rw [send_cut lv]
    cases (conc s).send 5 (ok i) to msg with
    | panic => rfl
    | ok r =>
      simp only [cut3, Res.bind_ok]
      split
      · rfl
      · rw [sendLoop_cut lv ok to msg (i + 1) ss]
        cases Mgr.sendLoop 5 ok to msg (i + 1) (ss.map conc) <;> simp [cut3, upTo_append]

theorem notifyLoop_cut (lv : Nat) (ok : Nat → Bool) (msg : Message) : ∀ (i : Nat) (ss : List Server),
    Mgr.notifyLoop lv ok msg i (ss.map conc) = cut3 lv (Mgr.notifyLoop 5 ok msg i (ss.map conc))
  | _, [] => rfl
  | i, s :: ss => by
    simp only [List.map_cons, Mgr.notifyLoop]
    rw [notify_cut lv]
    cases (conc s).notify 5 (ok i) msg with
    | panic => rfl
    | ok r =>
      simp only [cut3, Res.bind_ok]
      split
      · rfl
      · rw [notifyLoop_cut lv ok msg (i + 1) ss]
        cases Mgr.notifyLoop 5 ok msg (i + 1) (ss.map conc) <;> simp [cut3, upTo_append]

theorem round_cut (lv : Nat) (e : SocketEvent) (s : Server) :
    (conc s).round lv e = cut3 lv ((conc s).round 5 e) := by
  simp only [Srv.round, conc, UdpSocket.recvFrom, Bool.not_true, Bool.false_eq_true, if_false, UdpSocket.localAddr,
    unwrap, Res.bind_ok, Res.pure_eq, logged_ok, Level.num]
  cases e with
  | timeout => rfl
  | error =>
    cuts lv
  | datagram bytes src =>
    simp only []
    cases Message.parse Message.new (bytes.take maxPacketSize) with
    | panic => rfl
    | ok r =>
      obtain ⟨r, msg⟩ := r
      cases r <;> cuts lv

theorem take_cut (lv : Nat) (e : SocketEvent) (s : Server) :
    (conc s).take lv e = (((conc s).take 5 e).1, ((conc s).take 5 e).2.1, upTo lv ((conc s).take 5 e).2.2) := by
  unfold Srv.take
  cases (conc s).thread with
  | ended => rfl
  | panicked => rfl
  | running =>
    simp only []
    rw [round_cut lv]
    cases (conc s).round 5 e with
    | panic => rfl
    | ok r =>
      obtain ⟨a, g, l⟩ := r
      cases g <;> rfl

theorem takeAt_cut (lv : Nat) (e : SocketEvent) (k : Nat) (ss : List Server) :
    takeAt lv e k (ss.map conc) = ((takeAt 5 e k (ss.map conc)).1, (takeAt 5 e k (ss.map conc)).2.1,
      upTo lv (takeAt 5 e k (ss.map conc)).2.2) := by
  unfold takeAt
  rw [List.getElem?_map]
  cases ss[k]? with
  | none => rfl
  | some s => simp only [Option.map_some]; rw [take_cut lv]

theorem step_cut (lv : Nat) (m : Manager) (op : TOp) : (concM m).step lv op = cut3 lv ((concM m).step 5 op) := by
  cases op with
  | start menv uenv =>
    simp only [Mgr.step]
    rw [start_cut lv]
    cases (concM m).start 5 menv uenv <;> simp [cut3]
  | stop => simp only [Mgr.step]; cases (concM m).stop <;> simp [cut3, upTo]
  | addObserver o => rfl
  | send ok to msg =>
    simp only [Mgr.step, Mgr.send, concM]
    rw [sendLoop_cut lv]
    cases Mgr.sendLoop 5 ok to msg 0 (m.ucast.map conc) <;> simp [cut3]
  | notify ok msg =>
    simp only [Mgr.step, Mgr.notify, concM]
    rw [notifyLoop_cut lv]
    cases Mgr.notifyLoop 5 ok msg 0 (m.mcast.map conc) <;> simp [cut3]
  | hasInterface a => rfl
  | event mc k e =>
    cases mc
    · simp only [Mgr.step, concM]
      rw [takeAt_cut lv]; rfl
    · simp only [Mgr.step, concM]
      rw [takeAt_cut lv]; rfl

theorem run_cut (lv : Nat) : ∀ (ops : List TOp) (m : Manager),
    (concM m).run (ops.map (fun op => (lv, op))) = cut3 lv ((concM m).run (ops.map (fun op => (5, op))))
  | [], _ => rfl
  | op :: ops, m => by
    simp only [List.map_cons, Mgr.run]
    rw [step_cut lv]
    rcases step_conc 5 m op with ⟨_, h⟩ | ⟨m', o, l, _, h, _⟩
    · rw [h]; rfl
    · rw [h]
      simp only [cut3, Res.bind_ok]
      rw [run_cut lv ops m']
      cases (concM m').run (ops.map (fun op => (5, op))) <;> simp [cut3, upTo_append]

/-- C93: the log at level `lv` is the complete log without the lines of higher levels; nothing else is left out, and
nothing is printed differently. -/
theorem C93_levels (lv : Nat) (ops : List TOp) (m : Mgr) (seen : List Seen) (log : List Line)
    (h : Mgr.new.run (ops.map (fun op => (5, op))) = .ok (m, seen, log)) :
    Mgr.new.run (ops.map (fun op => (lv, op))) = .ok (m, seen, log.filter (fun x => lineLevel x ≤ lv)) := by
  have : Mgr.new = concM Manager.new := rfl
  rw [this] at h ⊢
  rw [run_cut lv, h]
  rfl

/-- C93: the receive loop of a server, with its socket and its log, hands over the same messages and ends in the same way as
`recvLoop`, at every level, after every history. -/
theorem C93_receive_loop (h : List (Nat × TOp)) (m : Mgr) (seen : List Seen) (log : List Line)
    (hr : Mgr.new.run h = .ok (m, seen, log)) (s : Srv) (hs : s ∈ m.ucast ++ m.mcast) (lv : Nat) (es : List SocketEvent) :
    ((s.loop lv es).1, (s.loop lv es).2.1) = recvLoop es := by
  have hin : ∃ a : Server, s = conc a := by
    rcases C93_abstraction h with ⟨_, h2⟩ | ⟨m', o, l, _, h2⟩
    · rw [h2] at hr; cases hr
    · rw [h2] at hr
      cases hr
      simp only [List.mem_append, List.mem_map] at hs
      rcases hs with ⟨a, _, rfl⟩ | ⟨a, _, rfl⟩ <;> exact ⟨a, rfl⟩
  obtain ⟨a, rfl⟩ := hin
  clear hs hr
  induction es with
  | nil => rfl
  | cons e es ih =>
    have ih' : (Srv.loop lv (conc a) es).1 = (recvLoop es).1 ∧ (Srv.loop lv (conc a) es).2.1 = (recvLoop es).2 :=
      ⟨congrArg Prod.fst ih, congrArg Prod.snd ih⟩
    unfold Srv.loop
    generalize hl : Srv.loop lv (conc a) es = q at ih ih'
    simp only [Srv.round, conc, UdpSocket.recvFrom, Bool.not_true, Bool.false_eq_true, if_false, UdpSocket.localAddr,
      unwrap, Res.bind_ok, Res.pure_eq, logged_ok]
    cases e with
    | timeout => simpa only [recvLoop, Option.toList, List.nil_append] using ih
    | error => rfl
    | datagram bytes src =>
      simp only [recvLoop]
      cases Message.parse Message.new (bytes.take maxPacketSize) with
      | panic => rfl
      | ok r =>
        obtain ⟨r, msg⟩ := r
        cases r with
        | false => simpa using ih
        | true => simp [ih']

/-- At level 2 (warnings), of the example history there remain the failed transmission, the datagram that does not parse and the
failed receive. -/
example : ∃ m seen log, Mgr.new.run ((exHistory 5).map (fun x => x.2) |>.map (fun op => (5, op))) = .ok (m, seen, log) ∧
    Mgr.new.run ((exHistory 5).map (fun x => x.2) |>.map (fun op => (2, op))) = .ok (m, seen, upTo 2 log) ∧
    (upTo 2 log).length = 3 ∧ log.length = 14 := by
  refine ⟨_, _, _, rfl, C93_levels 2 _ _ _ _ rfl, ?_⟩; decide +kernel

example : ∃ m seen log, Mgr.new.run (exHistory 5) = .ok (m, seen, log) ∧ ∀ s ∈ m.ucast ++ m.mcast,
    ((s.loop 3 [.datagram exLogged ⟨.v4 9, 3610⟩, .error]).1).length = 1 := by
  refine ⟨_, _, _, rfl, ?_⟩
  intro s hs
  have := C93_receive_loop (exHistory 5) _ _ _ rfl s hs 3 [.datagram exLogged ⟨.v4 9, 3610⟩, .error]
  have h1 : (s.loop 3 [.datagram exLogged ⟨.v4 9, 3610⟩, .error]).1 =
      (recvLoop [.datagram exLogged ⟨.v4 9, 3610⟩, .error]).1 := by rw [← this]
  rw [h1]
  decide +kernel

end Uecho
