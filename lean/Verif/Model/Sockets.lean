import Verif.Model.Transport
/-!
# The transport with its sockets and its log

`Verif/Model/Transport.lean` leaves out the sockets of the servers and the log. Here are the same functions with both: the
fields of `UdpSocket`, the places where `local_addr().unwrap()` would panic, and the lines given to the `log` macros.

The macros `error!`, `warn!`, `info!`, `debug!` of the crate `log` evaluate their arguments exactly if the level is at
most the maximal level of the process (`log::max_level()`); that level is the parameter `lv` of all functions. A line is
represented by its level and what its arguments print; how `std` prints addresses and `hex` prints bytes is not modelled (the
line holds the address and the bytes themselves), how a message is printed is (`Message::fmt`).
-/
namespace Uecho.Sock

/-- `log::Level` (crate `log`). -/
inductive Level where
  | error
  | warn
  | info
  | debug
  | trace
deriving DecidableEq, Repr

/-- The numbers of the levels; a `LevelFilter` is such a number or 0 (`Off`). -/
def Level.num : Level → Nat
  | .error => 1
  | .warn => 2
  | .info => 3
  | .debug => 4
  | .trace => 5

/-- A line of the log: which `log` macro was called, with what arguments. -/
inductive Line where
  /-- "SEND {} -> {}:{} ({})" (src/transport/unicast_server.rs:55-61) -/
  | send (from_ : SocketAddr) (to : SocketAddr) (msg : List Char)
  /-- "Couldn't send message to {} {}" (src/transport/unicast_server.rs:69) -/
  | sendFailed (to : SocketAddr)
  /-- "MCST {} -> {}:{} ({})" (src/transport/multicast_server.rs:57-63) -/
  | mcst (from_ : SocketAddr) (to : SocketAddr) (msg : List Char)
  /-- "Couldn't notify message to {} {}" (src/transport/multicast_server.rs:71) -/
  | mcstFailed (to : SocketAddr)
  /-- "Couldn't parse message {} [{}] {}" (src/transport/unicast_server.rs:115-120,
  src/transport/multicast_server.rs:149-154) -/
  | unparsed (src : SocketAddr) (len : Nat) (bytes : List UInt8)
  /-- "RECV {} -> {} ({})" (src/transport/unicast_server.rs:123-128, src/transport/multicast_server.rs:157-162); unicast
  servers print the source without its port -/
  | recv (src : SocketAddr) (to : SocketAddr) (msg : List Char)
  /-- "RECV {} ({})" (src/transport/unicast_server.rs:138-142, src/transport/multicast_server.rs:172-176) -/
  | recvFailed (at_ : SocketAddr)
  /-- "bind {} {}" (src/transport/unicast_server.rs:82) -/
  | bindFailed (a : IpAddr)
  /-- "BIND UDP {}" (src/transport/unicast_server.rs:86) -/
  | bindUdp (a : SocketAddr)
  /-- "BIND MCT {}" (src/transport/multicast_server.rs:86) -/
  | bindMct (a : SocketAddr)
  /-- "BIND MCT {}:{} -> {}:{}" (src/transport/multicast_server.rs:102-105, 118-121) -/
  | joined (a : IpAddr)
deriving DecidableEq, Repr

/-- A call of a log macro: its arguments are evaluated only if the level is enabled, and may panic then. -/
def logged (lv : Nat) (l : Level) (line : Res Line) : Res (List Line) :=
  if l.num ≤ lv then do
    let x ← line
    return [x]
  else .ok []

/-- `unwrap` of an `Option` or `Result`. -/
def unwrap {α : Type} : Option α → Res α
  | some a => .ok a
  | none => .panic

/-- `UdpSocket` (src/transport/udp_socket.rs:33-36): is there a socket, and the address. -/
structure UdpSocket where
  bound : Bool
  ifaddr : Option SocketAddr
deriving DecidableEq, Repr

namespace UdpSocket

/-- `UdpSocket::new` (src/transport/udp_socket.rs:67-72). -/
def new : UdpSocket := ⟨false, none⟩

/-- `UdpSocket::local_addr` (src/transport/udp_socket.rs:74-82). -/
def localAddr (s : UdpSocket) : Option SocketAddr := s.ifaddr

/-- `UdpSocket::bind` (src/transport/udp_socket.rs:84-119), with the outcome of each attempt to create the socket; `bindUdp`
is its loop. (Before it binds a socket that is bound already it shuts it down; the library binds only new ones.) -/
def bind (s : UdpSocket) (a : SocketAddr) (attempt : Nat → Bool) : Bool × UdpSocket :=
  if !Uecho.bindUdp attempt then (false, s) else (true, ⟨true, some a⟩)

/-- `UdpSocket::send_to` (src/transport/udp_socket.rs:136-145): did it work, given the outcome of the system call. -/
def sendTo (s : UdpSocket) (ok : Bool) : Bool := if !s.bound then false else ok

/-- `UdpSocket::recv_from` (src/transport/udp_socket.rs:147-152), given what the system call returns; the error for a
socket that is not bound is neither `WouldBlock` nor `TimedOut`. -/
def recvFrom (s : UdpSocket) (e : SocketEvent) : SocketEvent := if !s.bound then .error else e

/-- `UdpSocket::join_multicast_v4` (src/transport/udp_socket.rs:154-163). -/
def joinV4 (s : UdpSocket) (a : IpAddr) (ok : Bool) : Bool × UdpSocket :=
  if !s.bound then (false, s) else (ok, { s with ifaddr := some ⟨a, port⟩ })

/-- `UdpSocket::join_multicast_v6` (src/transport/udp_socket.rs:165-171): "addr:port" without brackets does not parse. -/
def joinV6 (s : UdpSocket) : Res (Bool × UdpSocket) :=
  if !s.bound then .ok (false, s) else .panic

end UdpSocket

/-- `UnicastServer` / `MulticastServer` (src/transport/unicast_server.rs:30-35,
src/transport/multicast_server.rs:30-35). -/
structure Srv where
  socket : UdpSocket
  observers : List ObserverRef
  thread : ThreadState
deriving DecidableEq, Repr

/-- `UnicastServer::new` / `MulticastServer::new` (src/transport/unicast_server.rs:38-45,
src/transport/multicast_server.rs:38-45), with the thread `start` adds (src/transport/unicast_server.rs:102-150). -/
def Srv.new : Srv := ⟨UdpSocket.new, [], .running⟩

/-- `UnicastServer::bind` (src/transport/unicast_server.rs:79-91). -/
def Srv.bindUnicast (lv : Nat) (e : IfOutcome) (s : Srv) : Res (Bool × Srv × List Line) :=
  match e.addr with
  | .v6 _ => do
    let l ← logged lv .error (.ok (.bindFailed e.addr))
    return (false, s, l)
  | .v4 _ => do
    let a : SocketAddr := ⟨e.addr, port⟩
    let l ← logged lv .debug (.ok (.bindUdp a))
    let r := s.socket.bind a e.bindOk
    return (r.1, { s with socket := r.2 }, l)

/-- `MulticastServer::bind` (src/transport/multicast_server.rs:81-125). -/
def Srv.bindMulticast (lv : Nat) (e : IfOutcome) (s : Srv) : Res (Bool × Srv × List Line) := do
  let a : SocketAddr := match e.addr with
    | .v4 _ => ⟨.v4 0, port⟩
    | .v6 _ => ⟨.v6 0, port⟩
  let l ← logged lv .debug (.ok (.bindMct a))
  let r := s.socket.bind a e.bindOk
  if !r.1 then return (false, { s with socket := r.2 }, l)
  let j ← match e.addr with
    | .v4 _ => .ok (r.2.joinV4 e.addr e.joinOk)
    | .v6 _ => r.2.joinV6
  if !j.1 then return (false, { s with socket := j.2 }, l)
  let l' ← logged lv .debug (.ok (.joined e.addr))
  return (true, { s with socket := j.2 }, l ++ l')

/-- `UnicastServer::send` (src/transport/unicast_server.rs:51-73), given what the system call returns. -/
def Srv.send (lv : Nat) (ok : Bool) (to : SocketAddr) (msg : Message) (s : Srv) : Res (Bool × List Tx × List Line) := do
  let bytes := msg.bytes
  let l ← logged lv .info do
    let a ← unwrap s.socket.localAddr
    return .send a to msg.display
  if !s.socket.sendTo ok then
    let l' ← logged lv .warn (.ok (.sendFailed to))
    return (false, [], l ++ l')
  -- the datagram leaves through a socket bound to the address of the interface
  let a ← unwrap s.socket.localAddr
  return (true, [⟨a.ip, to, bytes⟩], l)

/-- `MulticastServer::notify` (src/transport/multicast_server.rs:51-75). -/
def Srv.notify (lv : Nat) (ok : Bool) (msg : Message) (s : Srv) : Res (Bool × List Tx × List Line) := do
  let bytes := msg.bytes
  let l ← logged lv .info do
    let a ← unwrap s.socket.localAddr
    return .mcst a multicastAddr msg.display
  if !s.socket.sendTo ok then
    let l' ← logged lv .warn (.ok (.mcstFailed multicastAddr))
    return (false, [], l ++ l')
  let a ← unwrap s.socket.localAddr
  return (true, [⟨a.ip, multicastAddr, bytes⟩], l)

/-- One round of the receive loop (src/transport/unicast_server.rs:107-146,
src/transport/multicast_server.rs:141-180): the message handed to the observers, if any, whether the loop goes on, and
what is logged; a panic is a panic of the thread. -/
def Srv.round (lv : Nat) (e : SocketEvent) (s : Srv) : Res (Option Message × Bool × List Line) :=
  match s.socket.recvFrom e with
  | .datagram bytes src => do
    let r ← Message.parse Message.new (bytes.take maxPacketSize)
    if !r.1 then
      let l ← logged lv .warn (.ok (.unparsed src (bytes.take maxPacketSize).length (bytes.take maxPacketSize)))
      return (none, true, l)
    let l ← logged lv .info do
      let a ← unwrap s.socket.localAddr
      return .recv src a r.2.display
    return (some (r.2.setFrom src), true, l)
  | .timeout => .ok (none, true, [])
  | .error => do
    let l ← logged lv .warn do
      let a ← unwrap s.socket.localAddr
      return .recvFailed a
    return (none, false, l)

/-- The receive loop over a sequence of socket events (`recvLoop`), with what it logs until it ends. -/
def Srv.loop (lv : Nat) (s : Srv) : List SocketEvent → List Message × LoopEnd × List Line
  | [] => ([], .running, [])
  | e :: es =>
    match s.round lv e with
    | .panic => ([], .panicked, [])
    | .ok (m, false, l) => (m.toList, .ended, l)
    | .ok (m, true, l) =>
      let r := s.loop lv es
      (m.toList ++ r.1, r.2.1, l ++ r.2.2)

/-- `UnicastServer::stop` / `MulticastServer::stop` (src/transport/unicast_server.rs:152-161,
src/transport/multicast_server.rs:187-196). -/
def Srv.stop (s : Srv) : Res Bool :=
  match s.thread with
  | .panicked => .panic
  | _ => .ok true

/-- `Manager` (src/transport/manager.rs:23-26). -/
structure Mgr where
  ucast : List Srv
  mcast : List Srv
deriving DecidableEq, Repr

/-- The loop of `UnicastManager::start` (src/transport/unicast_manager.rs:82-91). -/
def startUnicastLoop (lv : Nat) : List IfOutcome → List Srv → Res (List Srv × List Line)
  | [], acc => .ok (acc, [])
  | e :: es, acc => do
    let r ← Srv.new.bindUnicast lv e
    let q ← startUnicastLoop lv es (if !r.1 then acc else acc ++ [r.2.1])
    return (q.1, r.2.2 ++ q.2)

/-- The loop of `MulticastManager::start` (src/transport/multicast_manager.rs:82-91). -/
def startMulticastLoop (lv : Nat) : List IfOutcome → List Srv → Res (List Srv × List Line)
  | [], acc => .ok (acc, [])
  | e :: es, acc => do
    let r ← Srv.new.bindMulticast lv e
    let q ← startMulticastLoop lv es (if !r.1 then acc else acc ++ [r.2.1])
    return (q.1, r.2.2 ++ q.2)

/-- `UnicastManager::start` (src/transport/unicast_manager.rs:77-93). -/
def startUnicast (lv : Nat) (env : List IfOutcome) (ss : List Srv) : Res (Bool × List Srv × List Line) :=
  if !ss.isEmpty then .ok (true, ss, [])
  else do
    let r ← startUnicastLoop lv env ss
    return (!r.1.isEmpty, r)

/-- `MulticastManager::start` (src/transport/multicast_manager.rs:77-93). -/
def startMulticast (lv : Nat) (env : List IfOutcome) (ss : List Srv) : Res (Bool × List Srv × List Line) :=
  if !ss.isEmpty then .ok (true, ss, [])
  else do
    let r ← startMulticastLoop lv env ss
    return (!r.1.isEmpty, r)

/-- `UnicastManager::stop` / `MulticastManager::stop` (src/transport/unicast_manager.rs:95-104,
src/transport/multicast_manager.rs:95-104). -/
def stopAll : List Srv → Res Bool
  | [] => .ok true
  | s :: ss => do
    let ok ← s.stop
    let r ← stopAll ss
    return (if !ok then false else r)

namespace Mgr

/-- `Manager::new` (src/transport/manager.rs:29-34). -/
def new : Mgr := ⟨[], []⟩

/-- `Manager::is_running` (src/transport/manager.rs:61-69), with `UnicastManager::is_running`,
`MulticastManager::is_running` (src/transport/unicast_manager.rs:58-63, src/transport/multicast_manager.rs:58-63). -/
def isRunning (m : Mgr) : Bool :=
  if m.mcast.isEmpty then false else if m.ucast.isEmpty then false else true

/-- `Manager::stop` (src/transport/manager.rs:86-90). -/
def stop (m : Mgr) : Res (Bool × Mgr) := do
  let r ← stopAll m.ucast
  let r' ← stopAll m.mcast
  return (r || r', ⟨[], []⟩)

/-- `Manager::start` (src/transport/manager.rs:71-84). -/
def start (lv : Nat) (menv uenv : List IfOutcome) (m : Mgr) : Res (Bool × Mgr × List Line) :=
  if m.isRunning then .ok (true, m, [])
  else do
    let r ← startMulticast lv menv m.mcast
    let m := { m with mcast := r.2.1 }
    if !r.1 then
      let s ← m.stop
      return (false, s.2, r.2.2)
    let q ← startUnicast lv uenv m.ucast
    let m := { m with ucast := q.2.1 }
    if !q.1 then
      let s ← m.stop
      return (false, s.2, r.2.2 ++ q.2.2)
    return (true, m, r.2.2 ++ q.2.2)

/-- `Manager::add_observer` (src/transport/manager.rs:36-44). -/
def addObserver (m : Mgr) (o : ObserverRef) : Mgr :=
  ⟨m.ucast.map (fun s => { s with observers := s.observers ++ [o] }),
   m.mcast.map (fun s => { s with observers := s.observers ++ [o] })⟩

/-- `UnicastManager::send` (src/transport/unicast_manager.rs:49-56). -/
def sendLoop (lv : Nat) (ok : Nat → Bool) (to : SocketAddr) (msg : Message) :
    Nat → List Srv → Res (Bool × List Tx × List Line)
  | _, [] => .ok (false, [], [])
  | i, s :: ss => do
    let r ← s.send lv (ok i) to msg
    if r.1 then return r
    let q ← sendLoop lv ok to msg (i + 1) ss
    return (q.1, r.2.1 ++ q.2.1, r.2.2 ++ q.2.2)

/-- `Manager::send` (src/transport/manager.rs:46-48). -/
def send (lv : Nat) (ok : Nat → Bool) (m : Mgr) (to : SocketAddr) (msg : Message) : Res (Bool × List Tx × List Line) :=
  sendLoop lv ok to msg 0 m.ucast

/-- `MulticastManager::notify` (src/transport/multicast_manager.rs:49-56). -/
def notifyLoop (lv : Nat) (ok : Nat → Bool) (msg : Message) : Nat → List Srv → Res (Bool × List Tx × List Line)
  | _, [] => .ok (true, [], [])
  | i, s :: ss => do
    let r ← s.notify lv (ok i) msg
    if !r.1 then return r
    let q ← notifyLoop lv ok msg (i + 1) ss
    return (q.1, r.2.1 ++ q.2.1, r.2.2 ++ q.2.2)

/-- `Manager::notify` (src/transport/manager.rs:50-52). -/
def notify (lv : Nat) (ok : Nat → Bool) (m : Mgr) (msg : Message) : Res (Bool × List Tx × List Line) :=
  notifyLoop lv ok msg 0 m.mcast

/-- `UnicastManager::has_interface`, `MulticastManager::has_interface` (src/transport/unicast_manager.rs:65-75,
src/transport/multicast_manager.rs:65-75, with `ifaddr` of the servers, src/transport/unicast_server.rs:75-77,
src/transport/multicast_server.rs:77-79). -/
def hasLoop (a : IpAddr) : List Srv → Bool
  | [] => false
  | s :: ss =>
    match s.socket.localAddr with
    | none => hasLoop a ss
    | some x => if x.ip = a then true else hasLoop a ss

/-- `Manager::has_interface` (src/transport/manager.rs:54-59). -/
def hasInterface (m : Mgr) (a : IpAddr) : Bool :=
  if hasLoop a m.mcast then true else hasLoop a m.ucast

end Mgr

/-! ## Histories -/

/-- What happens to a transport: calls of its methods, with what the operating system answers, and events at the sockets
of a multicast (`mcast`) or unicast server. -/
inductive TOp where
  | start (menv uenv : List IfOutcome)
  | stop
  | addObserver (o : ObserverRef)
  | send (ok : Nat → Bool) (to : SocketAddr) (msg : Message)
  | notify (ok : Nat → Bool) (msg : Message)
  | hasInterface (a : IpAddr)
  | event (mcast : Bool) (k : Nat) (e : SocketEvent)

/-- What can be seen of it: the result of the call, the datagrams put on the wire, the messages handed to
observers, and to which, in order (`NotifytManager::notify`, src/transport/notify_manager.rs:48-54). -/
structure Seen where
  result : Option Bool
  txs : List Tx
  handed : List (Message × List ObserverRef)
deriving DecidableEq, Repr

/-- A receiver thread that runs takes an event (`Srv.round`); the others do nothing any more. -/
def Srv.take (lv : Nat) (e : SocketEvent) (s : Srv) : Srv × List (Message × List ObserverRef) × List Line :=
  match s.thread with
  | .running =>
    match s.round lv e with
    | .panic => ({ s with thread := .panicked }, [], [])
    | .ok (m, true, l) => (s, m.toList.map (fun m => (m, s.observers)), l)
    | .ok (_, false, l) => ({ s with thread := .ended }, [], l)
  | _ => (s, [], [])

/-- The event reaches the `k`-th server of the list. -/
def takeAt (lv : Nat) (e : SocketEvent) (k : Nat) (ss : List Srv) : List Srv × List (Message × List ObserverRef) × List Line :=
  match ss[k]? with
  | none => (ss, [], [])
  | some s => let r := s.take lv e; (ss.set k r.1, r.2)

/-- One step of a history. What observers do with a message is not part of it. -/
def Mgr.step (lv : Nat) (m : Mgr) : TOp → Res (Mgr × Seen × List Line)
  | .start menv uenv => do
    let r ← m.start lv menv uenv
    return (r.2.1, ⟨some r.1, [], []⟩, r.2.2)
  | .stop => do
    let r ← m.stop
    return (r.2, ⟨some r.1, [], []⟩, [])
  | .addObserver o => .ok (m.addObserver o, ⟨some true, [], []⟩, [])
  | .send ok to msg => do
    let r ← m.send lv ok to msg
    return (m, ⟨some r.1, r.2.1, []⟩, r.2.2)
  | .notify ok msg => do
    let r ← m.notify lv ok msg
    return (m, ⟨some r.1, r.2.1, []⟩, r.2.2)
  | .hasInterface a => .ok (m, ⟨some (m.hasInterface a), [], []⟩, [])
  | .event true k e => let r := takeAt lv e k m.mcast; .ok ({ m with mcast := r.1 }, ⟨none, [], r.2.1⟩, r.2.2)
  | .event false k e => let r := takeAt lv e k m.ucast; .ok ({ m with ucast := r.1 }, ⟨none, [], r.2.1⟩, r.2.2)

/-- A history of a transport: each step with the maximal log level at that time. -/
def Mgr.run (m : Mgr) : List (Nat × TOp) → Res (Mgr × List Seen × List Line)
  | [] => .ok (m, [], [])
  | (lv, op) :: ops => do
    let r ← m.step lv op
    let q ← r.1.run ops
    return (q.1, r.2.1 :: q.2.1, r.2.2 ++ q.2.2)

end Uecho.Sock
