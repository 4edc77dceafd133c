import Verif.Spec.Session
/-!
# Specification vocabulary: remote calls made at the same time (C86)

`Reliable`, `Delivered`, `Routed`, `Posts`, `Fits`, `Running` are those of C84, `Ready` and `Answer` those of C85, and `Entry`,
`Access`, `valuesAfter`, `setsIn` and `setsOf` those of C83.
-/
namespace Uecho.Spec
variable {S : Type}

/-- A remote call: host `caller` posts the request `msg` to host `callee`, when `start` entries are in the log. -/
structure Call where
  caller : Nat
  callee : Nat
  msg : Message
  start : Nat

/-- The number of calls made by host `i`. -/
def callsBy (i : Nat) (cs : List Call) : Nat := cs.countP (fun c => c.caller == i)

/-- What the applications of host `i` have received through the channels of their calls. -/
def answersAt (i : Nat) (log : List Entry) : List (Nat × Message) := log.filterMap (fun
  | .put k (.deliver ch a) => if k = i then some (ch, a) else none
  | _ => none)

/-- The network repeats nothing: whatever one counts, not more datagrams are under way than before and were put out. -/
def NotRepeated (n : Net S) (outs : List Out) (n' : Net S) : Prop :=
  ∀ f : List UInt8 → IpAddr → Bool, n'.flying.countP (fun p => f p.bytes p.src.ip) ≤
    n.flying.countP (fun p => f p.bytes p.src.ip) + (txs outs).countP (fun t => f t.bytes t.iface)

/-- Executions in which any hosts make any number of calls to any hosts (also to themselves, as tests/node_test.rs does), at any
time, and applications set values at any time. An application waits for the answer to its last call before it makes another. The network loses nothing and
delivers nothing to a wrong host, but delays and reorders datagrams, and unless `once` it repeats them. No message is too
large for a frame or for the receive buffer. -/
inductive Concurrent (b : Build) (db : Database) (own : IpAddr → Option Nat) (once : Prop) (n₀ : Net S) :
    List Entry → List Call → Net S → Prop where
  | start : Concurrent b db own once n₀ [] [] n₀
  | step {log : List Entry} {cs : List Call} {n n' : Net S} {k : Nat} {outs : List Out}
      (h : Concurrent b db own once n₀ log cs n) (step : Reliable b db own n k outs n') (routed : Routed own n outs n')
      (fits : ∀ g u, Out.handed g u ∈ outs → Fits u) (copies : once → NotRepeated n outs n') :
      Concurrent b db own once n₀ (log ++ outs.map (.put k)) cs n'
  | post {log : List Entry} {cs : List Call} {n n' : Net S} {i j : Nat} {m : Message} {op : HostOp S} {to : IpAddr}
      {outs : List Out} (h : Concurrent b db own once n₀ log cs n)
      (waits : (answersAt i log).length = callsBy i cs)
      (format : m.isFormat1 = true) (service : m.esvByte = 0x61 ∨ m.esvByte = 0x62) (noTid : m.tid = 0)
      (post : Posts op to m) (address : own to = some j) (call : Net.Api b db n i op outs n')
      (delivered : ∃ ps, n'.flying = n.flying ++ ps ∧ Delivered own n outs ps) (routed : Routed own n outs n')
      (fits : ∀ g u, Out.handed g u ∈ outs → Fits u) (copies : once → NotRepeated n outs n') :
      Concurrent b db own once n₀ (log ++ outs.map (.put i)) (cs ++ [⟨i, j, m, log.length⟩]) n'
  | set {log : List Entry} {cs : List Call} {n n' : Net S} {outs : List Out} (k : Nat) (oc : UInt32) (c : UInt8)
      (d : List UInt8) (h : Concurrent b db own once n₀ log cs n) (call : Net.Api b db n k (.node (.setProperty oc c d)) outs n') :
      Concurrent b db own once n₀ (log ++ [.set k oc c d]) cs n'

/-- What happens to the objects of a host: call number `n` (the first is number 0) takes effect, or the application sets a
value. -/
inductive Effect where
  | call (n : Nat) (c : Call)
  | set (oc : UInt32) (c : UInt8) (d : List UInt8)

/-- The access to the objects. -/
def Effect.access : Effect → Access
  | .call _ c => .request c.msg
  | .set oc c d => .set oc c d

/-- The number of the call, if it is one. -/
def Effect.number : Effect → Option Nat
  | .call n _ => some n
  | .set _ _ _ => none

/-- `l` is an order in which the calls `cs` to host `j`, with objects `objs` and handlers `hs`, and the values set by its
application take effect. Each effect has a moment: the number of log entries written before it. `chan i` is the number of
the channel of the first call of host `i`. -/
structure Effects (once : Prop) (hs : List (Handler S)) (objs : List Object) (chan : Nat → Nat) (j : Nat) (log : List Entry)
    (cs : List Call) (l : List (Nat × Effect)) : Prop where
  /-- the effects are in the order of their moments -/
  ordered : l.Pairwise (fun x y => x.1 ≤ y.1)
  /-- the values set are exactly those the application set, when it set them -/
  sets : setsOf (l.map (fun x => (x.1, x.2.access))) = setsIn j log
  /-- calls take effect after they are made -/
  calls : ∀ t n c, (t, Effect.call n c) ∈ l → cs[n]? = some c ∧ c.callee = j ∧ c.start < t ∧ t ≤ log.length
  /-- they take effect at most once if the network repeats nothing -/
  once : once → (l.filterMap (fun x => x.2.number)).Nodup
  /-- what comes out of a channel is the answer to the call it belongs to, which has taken effect before; it says what the
  object, seen as a map of values to which everything before was applied, says -/
  answers : ∀ td i ch a, log[td]? = some (.put i (.deliver ch a)) → ∃ n c, cs[n]? = some c ∧ c.caller = i ∧
    ch = chan i + callsBy i (cs.take n) ∧ (c.callee = j → ∃ l₁ t l₂ o, l = l₁ ++ (t, .call n c) :: l₂ ∧ t ≤ td ∧
      findObject objs c.msg.deoj = some o ∧ Answer hs o (valuesAfter hs o (l₁.map (fun x => x.2.access))) c.msg a)

/-- The answer `a` to call number `n` arrives at its caller, as entry number `t` of the log. -/
def Arrives (chan : Nat → Nat) (log : List Entry) (cs : List Call) (n t : Nat) (a : Message) : Prop :=
  ∃ c, cs[n]? = some c ∧ log[t]? = some (.put c.caller (.deliver (chan c.caller + callsBy c.caller (cs.take n)) a))

/-- Every receiver thread calls the node once for a message (`DeviceNode` and `ControllerNode` register it once). -/
def CalledOnce (n : Net S) : Prop := ∀ k, ∀ s ∈ (n.hosts k).threads, s.observers.count .node ≤ 1

end Uecho.Spec
