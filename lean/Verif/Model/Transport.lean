import Verif.Model.Messages
/-!
# `src/transport/*`

The operating system is an environment: which interfaces exist, whether a `bind`, a multicast join or
a `send_to` succeeds, and what a socket receives are inputs of the functions below. Sockets and
logging are in `Model/Sockets.lean`. `close()` of a server (`try_read` on the socket lock) cannot fail here because write locks
are only taken inside `bind`, before the server is shared with its thread.
-/
namespace Uecho

/-- One entry of `datalink::interfaces()` (crate `pnet`) as far as the filter looks at it. -/
structure NetIf where
  isUp : Bool
  isLoopback : Bool
  isPointToPoint : Bool
  /-- addresses with prefix length -/
  ips : List (IpAddr × Nat)
deriving DecidableEq, Repr

/-- `is_ignore_interface` (src/transport/interface_unix.rs:29-36): 172.17.0.1/16. -/
def isIgnoreInterface (ip : IpAddr × Nat) : Bool := ip == (.v4 0xAC110001, 16)

/-- `is_v4_interface` (src/transport/interface_unix.rs:44-46). -/
def isV4Interface (ip : IpAddr × Nat) : Bool :=
  match ip.1 with
  | .v4 _ => true
  | .v6 _ => false

/-- `is_v6_interface` (src/transport/interface_unix.rs:49-51). -/
def isV6Interface (ip : IpAddr × Nat) : Bool :=
  match ip.1 with
  | .v4 _ => false
  | .v6 _ => true

/-- `get_interfaces` (src/transport/interface_unix.rs:54-77). -/
def getInterfaces (enable : IpAddr × Nat → Bool) (ifs : List NetIf) : List IpAddr :=
  ifs.foldl (fun acc i =>
    if !i.isUp then acc
    else if i.isLoopback || i.isPointToPoint then acc
    else if i.ips.isEmpty then acc
    else i.ips.foldl (fun acc ip =>
      if isIgnoreInterface ip then acc
      else if !enable ip then acc
      else acc ++ [ip.1]) acc) []

/-- `get_all_interfaces` (src/transport/interface_unix.rs:80-82), feature `unix`. -/
def getAllInterfaces (ifs : List NetIf) : List IpAddr := getInterfaces isV4Interface ifs
/-- `get_v4_interfaces` (src/transport/interface_unix.rs:85-87). -/
def getV4Interfaces (ifs : List NetIf) : List IpAddr := getInterfaces isV4Interface ifs
/-- `get_v6_interfaces` (src/transport/interface_unix.rs:90-92). -/
def getV6Interfaces (ifs : List NetIf) : List IpAddr := getInterfaces isV6Interface ifs

/-- Observers are shared objects; the model refers to them by name: the node itself, the controller
node, the (inert) device node, or an observer of the application. -/
inductive ObserverRef where
  | node
  | controller
  | device
  | user (n : Nat)
deriving DecidableEq, Repr

/-- State of a receiver thread: running, ended after a fatal socket error (`break`), or dead from a
panic. -/
inductive ThreadState where
  | running
  | ended
  | panicked
deriving DecidableEq, Repr

/-- `UnicastServer` / `MulticastServer` (src/transport/unicast_server.rs:30-35,
src/transport/multicast_server.rs:30-35) once bound and started: the interface address, the
notifier's observers and the thread. -/
structure Server where
  ifaddr : IpAddr
  observers : List ObserverRef
  thread : ThreadState
deriving DecidableEq, Repr

/-- `Manager` (src/transport/manager.rs:23-26) with the server vectors of its two sub-managers. -/
structure Manager where
  ucast : List Server
  mcast : List Server
deriving DecidableEq, Repr

/-- A datagram put on the wire: the interface address of the server whose socket sends it, the destination and the
bytes. Through which physical interface the kernel routes it is not modelled. -/
structure Tx where
  iface : IpAddr
  to : SocketAddr
  bytes : List UInt8
deriving DecidableEq, Repr

/-- `224.0.23.0:3610` (src/transport/default.rs:17,19). -/
def multicastAddr : SocketAddr := ⟨.v4 0xE0001700, port⟩

/-- What the operating system does for one interface during `start`: the results of the successive
`bind` attempts and of the multicast join. -/
structure IfOutcome where
  addr : IpAddr
  bindOk : Nat → Bool
  joinOk : Bool

/-- `UdpSocket::bind` (src/transport/udp_socket.rs:84-119): up to three attempts. -/
def bindUdp (attempt : Nat → Bool) : Bool :=
  (List.range 3).foldl (fun done n => if done then done else attempt n) false

/-- `UnicastServer::bind` (src/transport/unicast_server.rs:79-91): an IPv6 address formatted as
"addr:port" does not parse as a socket address, so `bind` fails for it. -/
def unicastBind (e : IfOutcome) : Bool :=
  match e.addr with
  | .v4 _ => bindUdp e.bindOk
  | .v6 _ => false

/-- `MulticastServer::bind` (src/transport/multicast_server.rs:81-125) and
`UdpSocket::join_multicast_v4`/`_v6` (src/transport/udp_socket.rs:154-171): for IPv6 the
`parse().unwrap()` of "addr:port" panics. -/
def multicastBind (e : IfOutcome) : Res Bool :=
  if !bindUdp e.bindOk then .ok false
  else match e.addr with
    | .v4 _ => .ok e.joinOk
    | .v6 _ => .panic

/-- A freshly started server (src/transport/unicast_server.rs:102-150,
src/transport/multicast_server.rs:136-185): `start` always succeeds. -/
def Server.started (a : IpAddr) : Server := ⟨a, [], .running⟩

/-- `UnicastManager::start` (src/transport/unicast_manager.rs:77-93). -/
def startUnicast (env : List IfOutcome) (servers : List Server) : Bool × List Server :=
  if !servers.isEmpty then (true, servers)
  else
    let servers := env.foldl (fun acc e =>
      if !unicastBind e then acc else acc ++ [Server.started e.addr]) servers
    (!servers.isEmpty, servers)

/-- The loop of `MulticastManager::start` (src/transport/multicast_manager.rs:82-91). -/
def startMulticastLoop : List IfOutcome → List Server → Res (List Server)
  | [], acc => .ok acc
  | e :: es, acc => do
    let ok ← multicastBind e
    startMulticastLoop es (if !ok then acc else acc ++ [Server.started e.addr])

/-- `MulticastManager::start` (src/transport/multicast_manager.rs:77-93). -/
def startMulticast (env : List IfOutcome) (servers : List Server) : Res (Bool × List Server) :=
  if !servers.isEmpty then .ok (true, servers)
  else do
    let servers ← startMulticastLoop env servers
    pure (!servers.isEmpty, servers)

/-- `UnicastServer::stop` / `MulticastServer::stop` (src/transport/unicast_server.rs:152-161,
src/transport/multicast_server.rs:187-196): joining a thread that panicked panics (`unwrap`). The join
itself is assumed to return (a thread notices the stop flag within its 500 ms read timeout). -/
def Server.stop (s : Server) : Res Bool :=
  match s.thread with
  | .panicked => .panic
  | _ => .ok true

/-- `UnicastManager::stop` / `MulticastManager::stop` (src/transport/unicast_manager.rs:95-104,
src/transport/multicast_manager.rs:95-104): the servers are cleared in any case. -/
def stopServers : List Server → Res Bool
  | [] => .ok true
  | s :: ss => do
    let ok ← s.stop
    let r ← stopServers ss
    pure (if !ok then false else r)

/-- `NotifytManager::add_observer` (src/transport/notify_manager.rs:31-42) on one server. -/
def Server.addObserver (s : Server) (o : ObserverRef) : Server :=
  { s with observers := s.observers ++ [o] }

namespace Manager

/-- `Manager::new` (src/transport/manager.rs:29-34). -/
def new : Manager := ⟨[], []⟩

/-- `Manager::add_observer` (src/transport/manager.rs:36-44), with
`UnicastManager::add_observer`, `MulticastManager::add_observer`
(src/transport/unicast_manager.rs:40-47, src/transport/multicast_manager.rs:40-47). -/
def addObserver (m : Manager) (o : ObserverRef) : Manager :=
  ⟨m.ucast.map (fun s => s.addObserver o), m.mcast.map (fun s => s.addObserver o)⟩

/-- `UnicastManager::send` (src/transport/unicast_manager.rs:49-56) and `UnicastServer::send`
(src/transport/unicast_server.rs:51-73): try the servers in order until one succeeds. `ok i` is the
outcome of `send_to` on the `i`-th server. -/
def sendLoop (ok : Nat → Bool) (to : SocketAddr) (msg : Message) : Nat → List Server → Bool × List Tx
  | _, [] => (false, [])
  | i, s :: ss => if ok i then (true, [⟨s.ifaddr, to, msg.bytes⟩]) else sendLoop ok to msg (i + 1) ss

/-- `Manager::send` (src/transport/manager.rs:46-48). -/
def send (ok : Nat → Bool) (m : Manager) (to : SocketAddr) (msg : Message) : Bool × List Tx :=
  sendLoop ok to msg 0 m.ucast

/-- `MulticastManager::notify` (src/transport/multicast_manager.rs:49-56) and
`MulticastServer::notify` (src/transport/multicast_server.rs:51-75): every server in order, stopping
at the first failure. -/
def notifyLoop (ok : Nat → Bool) (msg : Message) : Nat → List Server → Bool × List Tx
  | _, [] => (true, [])
  | i, s :: ss =>
    if !ok i then (false, [])
    else
      let r := notifyLoop ok msg (i + 1) ss
      (r.1, ⟨s.ifaddr, multicastAddr, msg.bytes⟩ :: r.2)

/-- `Manager::notify` (src/transport/manager.rs:50-52). -/
def notify (ok : Nat → Bool) (m : Manager) (msg : Message) : Bool × List Tx :=
  notifyLoop ok msg 0 m.mcast

/-- `Manager::has_interface` (src/transport/manager.rs:54-59) and the sub-managers' versions
(src/transport/unicast_manager.rs:65-75, src/transport/multicast_manager.rs:65-75): the address of a multicast
server is the one it joined with (src/transport/udp_socket.rs:154-163). -/
def hasInterface (m : Manager) (a : IpAddr) : Bool :=
  if m.mcast.any (fun s => s.ifaddr == a) then true else m.ucast.any (fun s => s.ifaddr == a)

/-- `Manager::is_running` (src/transport/manager.rs:61-69). -/
def isRunning (m : Manager) : Bool :=
  if m.mcast.isEmpty then false else if m.ucast.isEmpty then false else true

/-- `Manager::stop` (src/transport/manager.rs:86-90): the results are combined with `|=`. -/
def stop (m : Manager) : Res (Bool × Manager) := do
  let r ← stopServers m.ucast
  let r' ← stopServers m.mcast
  pure (r || r', ⟨[], []⟩)

/-- `Manager::start` (src/transport/manager.rs:71-84). The interfaces are enumerated once by each
sub-manager, so the two environments may differ. -/
def start (menv uenv : List IfOutcome) (m : Manager) : Res (Bool × Manager) :=
  if m.isRunning then .ok (true, m)
  else do
    let r ← startMulticast menv m.mcast
    let m := { m with mcast := r.2 }
    if !r.1 then
      let s ← m.stop
      return (false, s.2)
    let r := startUnicast uenv m.ucast
    let m := { m with ucast := r.2 }
    if !r.1 then
      let s ← m.stop
      return (false, s.2)
    return (true, m)

end Manager

/-! ## The receive loop -/

/-- What one `recv_from` call returns: a datagram (the kernel has already cut it to the buffer size)
with its source address, a time-out (`WouldBlock`/`TimedOut`), or another error. -/
inductive SocketEvent where
  | datagram (bytes : List UInt8) (src : SocketAddr)
  | timeout
  | error
deriving DecidableEq, Repr

/-- `MAX_PACKET_SIZE` (src/transport/default.rs:20). -/
def maxPacketSize : Nat := 1024

/-- Result of running the receive loop over a sequence of socket events. -/
inductive LoopEnd where
  /-- still running after the events -/
  | running
  /-- left the loop after a fatal socket error -/
  | ended
  /-- the thread panicked -/
  | panicked
deriving DecidableEq, Repr

/-- The receive loop (src/transport/unicast_server.rs:107-146, src/transport/multicast_server.rs:141-180),
as the list of messages handed to `notifier.notify` in order and the way the loop ended; `recv_from`
fills a buffer of `MAX_PACKET_SIZE` bytes, so longer datagrams are cut. -/
def recvLoop : List SocketEvent → List Message × LoopEnd
  | [] => ([], .running)
  | .datagram bytes src :: es =>
    match Message.parse Message.new (bytes.take maxPacketSize) with
    | .panic => ([], .panicked)
    | .ok (false, _) => recvLoop es
    | .ok (true, msg) =>
      let r := recvLoop es
      (msg.setFrom src :: r.1, r.2)
  | .timeout :: es => recvLoop es
  | .error :: _ => ([], .ended)

end Uecho
