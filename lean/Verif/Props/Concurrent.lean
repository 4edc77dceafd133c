import Verif.Spec.Concurrent
import Verif.Props.Session
/-!
# Remote calls made at the same time: C86
-/
namespace Uecho
open Spec
variable {S : Type}

/-! ## Calls and their numbers -/

theorem callsBy_append (i : Nat) (cs cs' : List Call) : callsBy i (cs ++ cs') = callsBy i cs + callsBy i cs' :=
  List.countP_append

theorem callsBy_one (i : Nat) (c : Call) : callsBy i [c] = if c.caller = i then 1 else 0 := by
  unfold callsBy
  by_cases h : c.caller = i <;> simp [h]

theorem callsBy_take_lt {cs : List Call} {n m : Nat} {c : Call} (h : cs[n]? = some c) (hlt : n < m) :
    callsBy c.caller (cs.take n) < callsBy c.caller (cs.take m) := by
  obtain ⟨hn, hc⟩ := List.getElem?_eq_some_iff.mp h
  have h1 : cs.take m = cs.take n ++ (c :: (cs.take m).drop (n + 1)) := by
    have h2 := (List.take_append_drop n (cs.take m)).symm
    rw [List.take_take, Nat.min_eq_left (by omega)] at h2
    have h3 : (cs.take m).drop n = c :: (cs.take m).drop (n + 1) := by
      rw [List.drop_eq_getElem_cons (by rw [List.length_take]; omega)]
      rw [List.getElem_take, hc]
    rw [h3] at h2; exact h2
  rw [h1, callsBy_append]
  have : callsBy c.caller (c :: (cs.take m).drop (n + 1)) = callsBy c.caller [c] + callsBy c.caller ((cs.take m).drop (n + 1)) := by
    rw [← callsBy_append]; rfl
  rw [this, callsBy_one, if_pos rfl]
  omega

/-- Call number `m` is `c`, and its TID is `t`. -/
def IsCall (n₀ : Net S) (cs : List Call) (m : Nat) (c : Call) (t : UInt16) : Prop :=
  cs[m]? = some c ∧ t.toNat = (n₀.hosts c.caller).node.lastTid.toNat + callsBy c.caller (cs.take m) + 1

theorem IsCall.mem {n₀ : Net S} {cs : List Call} {m : Nat} {c : Call} {t : UInt16} (h : IsCall n₀ cs m c t) : c ∈ cs :=
  List.mem_of_getElem? h.1

theorem IsCall.lt {n₀ : Net S} {cs : List Call} {m : Nat} {c : Call} {t : UInt16} (h : IsCall n₀ cs m c t) : m < cs.length :=
  (List.getElem?_eq_some_iff.mp h.1).1

theorem IsCall.tid {n₀ : Net S} {cs : List Call} {m : Nat} {c : Call} {t : UInt16} (h : IsCall n₀ cs m c t) : t ≠ 0 := by
  intro h0
  have := h.2
  rw [h0] at this
  simp at this

theorem IsCall.mono {n₀ : Net S} {cs : List Call} {m : Nat} {c : Call} {t : UInt16} (h : IsCall n₀ cs m c t) (d : Call) :
    IsCall n₀ (cs ++ [d]) m c t := by
  have hl := h.lt
  exact ⟨by rw [List.getElem?_append_left hl]; exact h.1, by rw [List.take_append_of_le_length (by omega)]; exact h.2⟩

theorem IsCall.unique {n₀ : Net S} {cs : List Call} {m m' : Nat} {c c' : Call} {t : UInt16} (h : IsCall n₀ cs m c t)
    (h' : IsCall n₀ cs m' c' t) (hc : c'.caller = c.caller) : m' = m ∧ c' = c := by
  have hm : m' = m := by
    have h1 := h.2
    have h2 := h'.2
    rw [hc] at h2
    rcases Nat.lt_trichotomy m m' with hlt | heq | hlt
    · have := callsBy_take_lt h.1 hlt
      omega
    · exact heq.symm
    · have := callsBy_take_lt h'.1 hlt
      rw [hc] at this
      omega
  subst hm
  exact ⟨rfl, Option.some.inj (h'.1.symm.trans h.1)⟩

theorem IsCall.inj {n₀ : Net S} {cs : List Call} {m : Nat} {c c' : Call} {t t' : UInt16} (h : IsCall n₀ cs m c t)
    (h' : IsCall n₀ cs m c' t') : c' = c ∧ t' = t := by
  have hc := Option.some.inj (h'.1.symm.trans h.1)
  subst hc
  exact ⟨rfl, UInt16.toNat_inj.mp (h'.2.trans h.2.symm)⟩

/-! ## Messages -/

/-- A copy of the request of a call. -/
def AskOf (own : IpAddr → Option Nat) (c : Call) (t : UInt16) (m : Message) : Prop :=
  AskM own c.caller c.msg.esvByte t c.msg.deoj m ∧ m.properties = c.msg.properties

/-- What is assumed of a call. -/
structure OkCall (n₀ : Net S) (c : Call) : Prop where
  service : c.msg.esvByte = 0x61 ∨ c.msg.esvByte = 0x62
  format : c.msg.isFormat1 = true
  asker : Running n₀ c.caller
  asked : Running n₀ c.callee
  target : ∃ o ∈ (n₀.hosts c.callee).node.objects, o.code = c.msg.deoj

theorem ask_received {n₀ : Net S} {own : IpAddr → Option Nat} {c : Call} (ok : OkCall n₀ c) {t : UInt16}
    (hfit : Fits (c.msg.setTid t)) {src : SocketAddr} (hsrc : own src.ip = some c.caller) :
    ∃ m, recvLoop [.datagram (c.msg.setTid t).bytes src] = ([m], .running) ∧ m.sender = src ∧ AskOf own c t m := by
  have h5 : (c.msg.setTid t).esvByte ≠ 0x5E := by
    show c.msg.esvByte ≠ 0x5E
    rcases ok.service with h | h <;> rw [h] <;> decide
  obtain ⟨m, g1, g2, g3, g4, g5⟩ := fits_received (u := c.msg.setTid t) ok.format h5 hfit src
  obtain ⟨_, _, _, _, _, g6⟩ := decode_faithful hfit.1 h5 g1
  refine ⟨m, g1, g2, ⟨g3, by rw [g5, setTid_tid], g4, by rw [g2]; exact hsrc, ⟨_, _, g1⟩⟩, g6 ?_⟩
  show isWriteReadByte c.msg.esvByte = false
  rcases ok.service with h | h <;> rw [h] <;> decide

theorem AskOf.same {own : IpAddr → Option Nat} {c : Call} {t : UInt16} {m : Message} (h : AskOf own c t m) :
    SameAsk m c.msg := ⟨h.1.1, h.1.2.2.1, h.2⟩

theorem AskOf.request {n₀ : Net S} {own : IpAddr → Option Nat} {c : Call} {t : UInt16} {m : Message} (h : AskOf own c t m)
    (ok : OkCall n₀ c) : isRequestByte m.esvByte = true ∧ m.esvByte ≠ 0x5E := by
  rw [h.1.1]
  rcases ok.service with h | h <;> rw [h] <;> decide

/-- The answers carry the TID. -/
theorem ask_tid {b : Build} {own : IpAddr → Option Nat} {i : Nat} {e : UInt8} {t : UInt16} {d : UInt32} (ht : t ≠ 0)
    {n n' : Node S} (hk : ∀ o ∈ n.objects, KeysOk o) {m : Message} (hm : AskM own i e t d m) {ω : HashOrder} {ok : Nat → Bool}
    {outs : List Out} (ho : n.observe b ω ok m = .ok (n', outs)) : ∀ x ∈ txs outs, wireTid x.bytes = t.toNat := by
  intro x hx
  obtain ⟨u, hu⟩ := mem_txs_reply ho hx
  obtain ⟨_, _, _, _, svc, hh, htx, _⟩ := Node.reply_cases hk ho hu
  have hb : x.bytes = u.bytes := by rw [htx] at hx; exact mem_txs_bytes hx
  rw [hb, (wire_bytes u).1, hh.tid, hm.2.1, if_neg ht]

/-- What an observer does to a host. -/
theorem invoke_node {b : Build} {db : Database} {e : CallEnv} {h h' : Host S} {m : Message} {o : ObserverRef} {outs : List Out}
    (hi : h.invoke b db e m o = .ok (h', outs)) (hfree : e.nodeFree = true) :
    (o ≠ .node ∧ h'.node = h.node ∧ outs = []) ∨ (o = .node ∧ h.node.observe b e.ω e.ok m = .ok (h'.node, outs)) := by
  cases o with
  | controller =>
    simp only [Host.invoke] at hi
    obtain ⟨r, _, hi⟩ := Res.bind_eq_ok.mp hi
    simp only [Res.pure_eq, Res.ok.injEq, Prod.mk.injEq] at hi
    exact Or.inl ⟨nofun, by rw [← hi.1], hi.2.symm⟩
  | device =>
    simp only [Host.invoke, Res.ok.injEq, Prod.mk.injEq] at hi
    exact Or.inl ⟨nofun, by rw [← hi.1], hi.2.symm⟩
  | user u =>
    simp only [Host.invoke, Res.ok.injEq, Prod.mk.injEq] at hi
    exact Or.inl ⟨nofun, by rw [← hi.1], hi.2.symm⟩
  | node =>
    simp only [Host.invoke, Node.observeTry, hfree, Bool.not_true, Bool.false_eq_true, if_false] at hi
    obtain ⟨r, hr, hi⟩ := Res.bind_eq_ok.mp hi
    simp only [Res.pure_eq, Res.ok.injEq, Prod.mk.injEq] at hi
    obtain ⟨rfl, rfl⟩ := hi
    exact Or.inr ⟨rfl, hr⟩

/-! ## Logs -/

theorem answersAt_append (i : Nat) (a b : List Entry) : answersAt i (a ++ b) = answersAt i a ++ answersAt i b :=
  List.filterMap_append

theorem answersAt_same (i : Nat) (outs : List Out) : answersAt i (outs.map (.put i)) = deliveries outs := by
  unfold answersAt deliveries
  induction outs with
  | nil => rfl
  | cons o os ih => cases o <;> simp_all

theorem answersAt_other {i k : Nat} (h : k ≠ i) (outs : List Out) : answersAt i (outs.map (.put k)) = [] := by
  unfold answersAt
  rw [List.filterMap_map, List.filterMap_eq_nil_iff]
  intro o _
  cases o <;> simp [h]

/-! ## The invariant -/

/-- Something that belongs to the last call of host `i` and will lead to its answer. -/
def Pending (own : IpAddr → Option Nat) (n₀ : Net S) (cs : List Call) (n : Net S) (i : Nat) : Prop :=
  ∃ m c t, IsCall n₀ cs m c t ∧ c.caller = i ∧ t = (n.hosts i).node.lastTid ∧
    ((∃ p ∈ n.flying, p.host = c.callee ∧ p.bytes = (c.msg.setTid t).bytes ∧ own p.src.ip = some i ∧ Listening n₀ p.host p.srv) ∨
     (∃ q ∈ n.busy, q.host = c.callee ∧ q.todo.head? = some .node ∧ AskOf own c t q.msg) ∨
     (∃ p ∈ n.flying, p.host = i ∧ IsPacket (RespM t) p ∧ Listening n₀ i p.srv) ∨
     (∃ q ∈ n.busy, q.host = i ∧ q.todo.head? = some .node ∧ RespM t q.msg))

/-- An access of the node and the effect it is. -/
def Matched (own : IpAddr → Option Nat) (n₀ : Net S) (cs : List Call) (j : Nat) (x : (Nat × Access) × Effect) : Prop :=
  match x with
  | ((tm, .request q), .call m c) => ∃ t, IsCall n₀ cs m c t ∧ c.callee = j ∧ c.start < tm ∧ AskOf own c t q
  | ((_, .set oc c d), .set oc' c' d') => oc = oc' ∧ c = c' ∧ d = d'
  | _ => False

/-- Copies of the request of a call that are under way. -/
def flyCount (own : IpAddr → Option Nat) (c : Call) (t : UInt16) (n : Net S) : Nat :=
  n.flying.countP (fun p => p.bytes == (c.msg.setTid t).bytes && own p.src.ip == some c.caller)

/-- A message is a copy of the request of a call. -/
def isAsk (own : IpAddr → Option Nat) (c : Call) (t : UInt16) (m : Message) : Bool :=
  isRequestByte m.esvByte && own m.sender.ip == some c.caller && m.tid == t

/-- How often the node will still be called for copies of the request of a call. -/
def busyCount (own : IpAddr → Option Nat) (c : Call) (t : UInt16) (n : Net S) : Nat :=
  (n.busy.map (fun q => if isAsk own c t q.msg then q.todo.count .node else 0)).sum

/-- What a datagram is. -/
def FlyOk (own : IpAddr → Option Nat) (n₀ : Net S) (cs : List Call) (p : Packet) : Prop :=
  ∃ m c t, IsCall n₀ cs m c t ∧
    ((p.host = c.callee ∧ p.bytes = (c.msg.setTid t).bytes ∧ own p.src.ip = some c.caller) ∨
     (p.host = c.caller ∧ IsPacket (RespM t) p))

/-- What a receiver thread is busy with. -/
def BusyOk (own : IpAddr → Option Nat) (n₀ : Net S) (cs : List Call) (q : Busy) : Prop :=
  ∃ m c t, IsCall n₀ cs m c t ∧ ((q.host = c.callee ∧ AskOf own c t q.msg) ∨ (q.host = c.caller ∧ RespM t q.msg))

/-- What a host has put on the network. -/
def TxOk (own : IpAddr → Option Nat) (n₀ : Net S) (cs : List Call) (k : Nat) (x : Tx) : Prop :=
  ∃ m c t, IsCall n₀ cs m c t ∧
    ((k = c.caller ∧ x.bytes = (c.msg.setTid t).bytes) ∨
     (k = c.callee ∧ own x.to.ip = some c.caller ∧ wireTid x.bytes = t.toNat ∧ ∃ v, x.bytes[10]? = some v ∧ isAnswerByte v = true))

/-- The order of effects at a host. -/
def LinOk (own : IpAddr → Option Nat) (once : Prop) (n₀ : Net S) (log : List Entry) (cs : List Call) (n : Net S) (j : Nat) : Prop :=
  ∃ w : List ((Nat × Access) × Effect),
    LinInv own (n₀.hosts j).node.handlers (n₀.hosts j).node.objects j log n (w.map (fun x => x.1)) ∧
    (∀ x ∈ w, Matched own n₀ cs j x) ∧
    (once → ∀ m c t, IsCall n₀ cs m c t → c.callee = j →
      flyCount own c t n + busyCount own c t n + w.countP (fun x => x.2.number == some m) ≤ 1)

/-- The channels of host `i`. -/
def StateOk (own : IpAddr → Option Nat) (n₀ : Net S) (log : List Entry) (cs : List Call) (n : Net S) (i : Nat) : Prop :=
  ((n.hosts i).node.post = none ∧
    (answersAt i log).map (fun x => x.1) = List.range' (n₀.hosts i).node.nextChan (callsBy i cs)) ∨
  ∃ N, callsBy i cs = N + 1 ∧ (n.hosts i).node.post = some ((n₀.hosts i).node.nextChan + N) ∧
    (answersAt i log).map (fun x => x.1) = List.range' (n₀.hosts i).node.nextChan N ∧ Pending own n₀ cs n i

structure ConInv (b : Build) (own : IpAddr → Option Nat) (once : Prop) (n₀ : Net S) (log : List Entry) (cs : List Call)
    (n : Net S) : Prop where
  ok : ∀ c ∈ cs, OkCall n₀ c
  transport : ∀ k, (n.hosts k).node.transport = (n₀.hosts k).node.transport
  valid : ∀ k, ∀ o ∈ (n.hosts k).node.objects, ValidObject b o
  tids : ∀ k, (n.hosts k).node.lastTid.toNat = (n₀.hosts k).node.lastTid.toNat + callsBy k cs
  chans : ∀ k, (n.hosts k).node.nextChan = (n₀.hosts k).node.nextChan + callsBy k cs
  starts : ∀ c ∈ cs, c.start < log.length
  handed : ∀ k g u, Entry.put k (.handed g u) ∈ log → Fits u
  sizes : ∀ m c t, IsCall n₀ cs m c t → Fits (c.msg.setTid t)
  fly : ∀ p ∈ n.flying, FlyOk own n₀ cs p
  busy : ∀ q ∈ n.busy, BusyOk own n₀ cs q
  only : ∀ k x, Entry.put k (.tx x) ∈ log → TxOk own n₀ cs k x
  dels : ∀ k ch a, Entry.put k (.deliver ch a) ∈ log → isAnswerByte a.esvByte = true ∧
    ∃ d, ch = (n₀.hosts k).node.nextChan + d ∧ a.tid.toNat = (n₀.hosts k).node.lastTid.toNat + d + 1
  state : ∀ i, StateOk own n₀ log cs n i
  lin : ∀ j, LinOk own once n₀ log cs n j

theorem concurrent_logged {b : Build} {db : Database} {own : IpAddr → Option Nat} {once : Prop} {n₀ n : Net S}
    {log : List Entry} {cs : List Call} (h : Concurrent b db own once n₀ log cs n) (j : Nat) : Logged b db own j n₀ log n := by
  induction h with
  | start => exact .init
  | step _ hs hr _ _ ih => exact .internal ih (reliable_internal hs) hr
  | post _ _ _ hsv _ hp _ hc _ hr _ _ ih =>
    obtain ⟨h1, h2, h3⟩ := posts_plain hp hsv own _
    have := Logged.api ih hc hr h3 h1 (fun _ => h2)
    rw [posts_set hp] at this
    exact this
  | set k oc c d _ hc ih =>
    have hc' := hc
    cases hc' with
    | mk h' _ ps ha hs hps =>
      simp only [Host.step, Node.step, Res.bind_ok, Res.pure_eq, Res.ok.injEq, Prod.mk.injEq] at hs
      obtain ⟨_, rfl⟩ := hs
      have := Logged.api ih hc (own := own) (j := j) (by
        intro p hp
        rcases List.mem_append.mp hp with hp | hp
        · exact Or.inl hp
        · obtain ⟨t, ht, _⟩ := hps p hp
          cases ht) trivial trivial (fun _ => trivial)
      simpa [setBy] using this

/-! ## Keeping the invariant -/

section
variable {b : Build} {db : Database} {own : IpAddr → Option Nat} {once : Prop} {n₀ n n' : Net S} {log : List Entry}
  {cs : List Call}

theorem threads_of_transport {h h' : Host S} (e : h'.node.transport = h.node.transport) : h'.threads = h.threads := by
  unfold Host.threads; rw [e]

theorem ConInv.threads (inv : ConInv b own once n₀ log cs n) (k : Nat) : (n.hosts k).threads = (n₀.hosts k).threads :=
  threads_of_transport (inv.transport k)

theorem ConInv.listening (inv : ConInv b own once n₀ log cs n) (k s : Nat) : Listening n k s ↔ Listening n₀ k s := by
  unfold Listening; rw [inv.threads k]

theorem ConInv.keys (inv : ConInv b own once n₀ log cs n) (k : Nat) : ∀ o ∈ (n.hosts k).node.objects, KeysOk o := by
  obtain ⟨_, h, _⟩ := inv.lin k
  exact h.keys

theorem ConInv.target (inv : ConInv b own once n₀ log cs n) {c : Call} (ok : OkCall n₀ c) :
    ∃ o ∈ (n.hosts c.callee).node.objects, o.code = c.msg.deoj := by
  obtain ⟨o, ho, hoc⟩ := ok.target
  obtain ⟨_, h, _⟩ := inv.lin c.callee
  cases hf : findObject (n₀.hosts c.callee).node.objects c.msg.deoj with
  | none => exact absurd hoc (findObject_none_iff.mp hf o ho)
  | some x =>
    obtain ⟨y, hy, _⟩ := h.alike.find hf
    obtain ⟨p1, p2, h1, _, h3⟩ := findObject_split hy
    exact ⟨y, by rw [h1]; simp, h3⟩

/-- A step that changes no node and writes nothing down. -/
theorem ConInv.quiet (inv : ConInv b own once n₀ log cs n) (hn : ∀ k, (n'.hosts k).node = (n.hosts k).node)
    (hf : ∀ p ∈ n'.flying, p ∈ n.flying) (hb : ∀ q ∈ n'.busy, BusyOk own n₀ cs q)
    (hp : ∀ i, Pending own n₀ cs n i → Pending own n₀ cs n' i)
    (hc : once → ∀ m c t, IsCall n₀ cs m c t →
      flyCount own c t n' + busyCount own c t n' ≤ flyCount own c t n + busyCount own c t n) :
    ConInv b own once n₀ log cs n' := by
  obtain ⟨a1, a2, a3, a4, a5, a6, a7, a8, a9, a10, a11, a12, a13, a14⟩ := inv
  refine ⟨a1, ?_, ?_, ?_, ?_, a6, a7, a8, fun p hp => a9 p (hf p hp), hb, a11, a12, ?_, ?_⟩
  · intro k; rw [hn]; exact a2 k
  · intro k; rw [hn]; exact a3 k
  · intro k; rw [hn]; exact a4 k
  · intro k; rw [hn]; exact a5 k
  · intro i
    rcases a13 i with h | ⟨N, h1, h2, h3, h4⟩
    · exact Or.inl (by rw [hn]; exact h)
    · exact Or.inr ⟨N, h1, by rw [hn]; exact h2, h3, hp i h4⟩
  · intro j
    obtain ⟨w, h1, h2, h3⟩ := a14 j
    refine ⟨w, ?_, h2, ?_⟩
    · have := h1.frame (n' := n') [] (by rw [hn]) (by rw [hn]) (by simp) (by simp)
      simpa using this
    · intro ho m c t hm hj
      have := h3 ho m c t hm hj
      have := hc ho m c t hm
      omega

theorem busyCount_split {c : Call} {t : UInt16} {x : Net S} {l₁ l₂ : List Busy} {q : Busy} (h : x.busy = l₁ ++ q :: l₂) :
    busyCount own c t x = (l₁.map (fun q => if isAsk own c t q.msg then q.todo.count .node else 0)).sum +
      (if isAsk own c t q.msg then q.todo.count .node else 0) +
      (l₂.map (fun q => if isAsk own c t q.msg then q.todo.count .node else 0)).sum := by
  unfold busyCount
  rw [h]
  simp only [List.map_append, List.map_cons, List.sum_append, List.sum_cons]
  omega

theorem busyCount_append {c : Call} {t : UInt16} {x : Net S} {l₁ l₂ : List Busy} (h : x.busy = l₁ ++ l₂) :
    busyCount own c t x = (l₁.map (fun q => if isAsk own c t q.msg then q.todo.count .node else 0)).sum +
      (l₂.map (fun q => if isAsk own c t q.msg then q.todo.count .node else 0)).sum := by
  unfold busyCount
  rw [h]
  simp only [List.map_append, List.sum_append]

theorem flyCount_split {c : Call} {t : UInt16} {x : Net S} {l₁ l₂ : List Packet} {p : Packet} (h : x.flying = l₁ ++ p :: l₂) :
    flyCount own c t x = (l₁ ++ l₂).countP (fun p => p.bytes == (c.msg.setTid t).bytes && own p.src.ip == some c.caller) +
      (if p.bytes == (c.msg.setTid t).bytes && own p.src.ip == some c.caller then 1 else 0) := by
  unfold flyCount
  rw [h]
  simp only [List.countP_append, List.countP_cons]
  omega

theorem isAsk_of {c : Call} {t : UInt16} {m : Message} (ok : OkCall n₀ c) (h : AskOf own c t m) : isAsk own c t m = true := by
  have h1 := (h.request ok).1
  obtain ⟨⟨_, h3, _, h4, _⟩, _⟩ := h
  simp [isAsk, h1, h3, h4]

/-- Only copies of the request of a call look like it. -/
theorem BusyOk.ask {q : Busy} (h : BusyOk own n₀ cs q) {m : Nat} {c : Call} {t : UInt16} (hc : IsCall n₀ cs m c t)
    (hq : isAsk own c t q.msg = true) : q.host = c.callee ∧ AskOf own c t q.msg := by
  simp only [isAsk, Bool.and_eq_true, beq_iff_eq] at hq
  obtain ⟨m', c', t', h1, h2⟩ := h
  rcases h2 with ⟨h3, h4⟩ | ⟨_, h4⟩
  · have e1 : t' = t := by rw [← h4.1.2.1]; exact hq.2
    subst e1
    have e2 : c'.caller = c.caller := by
      have := h4.1.2.2.2.1
      rw [hq.1.2] at this
      exact (Option.some.inj this).symm
    obtain ⟨_, rfl⟩ := hc.unique h1 e2
    exact ⟨h3, h4⟩
  · rw [h4.2.1] at hq
    exact absurd hq.1.1 (by decide)

/-- What a datagram is received as. -/
theorem FlyOk.received (inv : ConInv b own once n₀ log cs n) {p : Packet} (h : FlyOk own n₀ cs p) :
    ∃ m, recvLoop [.datagram p.bytes p.src] = ([m], .running) ∧
      (∀ (s : Server), s ∈ (n.hosts p.host).threads → s.observers.head? = some .node) ∧
      (∀ (os : List ObserverRef), BusyOk own n₀ cs ⟨p.host, p.srv, m, os⟩) ∧
      ∀ i c t, IsCall n₀ cs i c t → isAsk own c t m = true →
        (p.bytes == (c.msg.setTid t).bytes && own p.src.ip == some c.caller) = true := by
  obtain ⟨m, c, t, h1, ⟨h2, h3, h4⟩ | ⟨h2, x, h3, h4⟩⟩ := h
  · have ok := inv.ok c h1.mem
    obtain ⟨x, g1, g2, g3⟩ := ask_received ok (inv.sizes m c t h1) h4
    refine ⟨x, by rw [h3]; exact g1, ?_, fun os => ⟨m, c, t, h1, Or.inl ⟨h2, g3⟩⟩, ?_⟩
    · intro s hs
      refine ok.asked.calls s ?_
      rw [inv.threads, h2] at hs; exact hs
    · intro i c' t' hc' ha
      simp only [isAsk, Bool.and_eq_true, beq_iff_eq] at ha
      have e1 : t = t' := by rw [← g3.1.2.1]; exact ha.2
      subst e1
      have e2 : c'.caller = c.caller := by
        have := g3.1.2.2.2.1
        rw [ha.1.2] at this
        exact Option.some.inj this
      obtain ⟨_, rfl⟩ := h1.unique hc' e2
      simp [h3, h4]
  · refine ⟨x, h3, ?_, fun os => ⟨m, c, t, h1, Or.inr ⟨h2, h4⟩⟩, ?_⟩
    · intro s hs
      refine (inv.ok c h1.mem).asker.calls s ?_
      rw [inv.threads, h2] at hs; exact hs
    · intro i c' t' _ ha
      simp only [isAsk, Bool.and_eq_true] at ha
      rw [h4.2.1] at ha
      exact absurd ha.1.1 (by decide)

theorem Pending.mk' {i : Nat} (h : Pending own n₀ cs n i) (hl : (n'.hosts i).node.lastTid = (n.hosts i).node.lastTid)
    (hf : ∀ p ∈ n.flying, Listening n₀ p.host p.srv → p ∈ n'.flying ∨
      ∃ m, recvLoop [.datagram p.bytes p.src] = ([m], .running) ∧ ∃ q ∈ n'.busy, q.host = p.host ∧ q.todo.head? = some .node ∧ q.msg = m)
    (ok : ∀ c ∈ cs, OkCall n₀ c) (hz : ∀ m c t, IsCall n₀ cs m c t → Fits (c.msg.setTid t))
    (hb : ∀ q ∈ n.busy, q.todo.head? = some .node → q ∈ n'.busy) : Pending own n₀ cs n' i := by
  obtain ⟨m, c, t, h1, h2, h3, h4⟩ := h
  refine ⟨m, c, t, h1, h2, by rw [hl]; exact h3, ?_⟩
  rcases h4 with ⟨p, g1, g2, g3, g4, g5⟩ | ⟨q, g1, g2, g3, g4⟩ | ⟨p, g1, g2, g3, g4⟩ | ⟨q, g1, g2, g3, g4⟩
  · rcases hf p g1 g5 with g6 | ⟨x, g6, q, g7, g8, g9, g10⟩
    · exact Or.inl ⟨p, g6, g2, g3, g4, g5⟩
    · refine Or.inr (Or.inl ⟨q, g7, g8.trans g2, g9, ?_⟩)
      rw [← h2] at g4
      obtain ⟨y, k1, _, k2⟩ := ask_received (ok c h1.mem) (hz m c t h1) g4
      rw [g3, k1] at g6
      simp only [Prod.mk.injEq, List.cons.injEq, and_true] at g6
      rw [g10, ← g6]; exact k2
  · exact Or.inr (Or.inl ⟨q, hb q g1 g3, g2, g3, g4⟩)
  · rcases hf p g1 (by rw [g2]; exact g4) with g6 | ⟨x, g6, q, g7, g8, g9, g10⟩
    · exact Or.inr (Or.inr (Or.inl ⟨p, g6, g2, g3, g4⟩))
    · refine Or.inr (Or.inr (Or.inr ⟨q, g7, g8.trans g2, g9, ?_⟩))
      obtain ⟨y, k1, k2⟩ := g3
      rw [k1] at g6
      simp only [Prod.mk.injEq, List.cons.injEq, and_true] at g6
      rw [g10, ← g6]; exact k2
  · exact Or.inr (Or.inr (Or.inr ⟨q, hb q g1 g3, g2, g3, g4⟩))

theorem ConInv.receive (inv : ConInv b own once n₀ log cs n) (hone : once → CalledOnce n₀) {l₁ l₂ : List Packet} {p : Packet}
    {s : Server} (hf : n.flying = l₁ ++ p :: l₂) (hs : (n.hosts p.host).threads[p.srv]? = some s) :
    ConInv b own once n₀ log cs (n.received p s (l₁ ++ l₂)) := by
  obtain ⟨m, hm, hfirst, hok, hask⟩ := FlyOk.received inv (inv.fly p (by rw [hf]; simp))
  have hx : n.received p s (l₁ ++ l₂) =
      { n with flying := l₁ ++ l₂, busy := n.busy ++ [⟨p.host, p.srv, m, s.observers⟩] } := by
    unfold Net.received; rw [hm]
  rw [hx]
  have hmem := List.mem_of_getElem? hs
  refine inv.quiet (fun _ => rfl) (fun p' hp' => mem_of_split hf hp') ?_ ?_ ?_
  · intro q hq
    rcases List.mem_append.mp hq with hq | hq
    · exact inv.busy q hq
    · rw [List.mem_singleton.mp hq]; exact hok _
  · intro i hp
    refine hp.mk' rfl ?_ inv.ok inv.sizes (fun q hq _ => List.mem_append_left _ hq)
    intro p' hp' _
    rcases mem_split_cases hf hp' with rfl | h
    · exact Or.inr ⟨m, hm, _, List.mem_append_right _ (List.mem_singleton.mpr rfl), rfl, hfirst s hmem, rfl⟩
    · exact Or.inl h
  · intro ho i c t hc
    rw [flyCount_split hf, busyCount_append (l₁ := n.busy) rfl]
    have h1 : s.observers.count .node ≤ 1 := hone ho p.host s (by rw [← inv.threads]; exact hmem)
    have h2 := hask i c t hc
    show List.countP _ (l₁ ++ l₂) + _ ≤ _
    unfold busyCount
    by_cases h3 : isAsk own c t m = true
    · rw [if_pos (h2 h3)]
      simp only [List.map_cons, List.map_nil, List.sum_cons, List.sum_nil, h3, if_true]
      omega
    · simp only [List.map_cons, List.map_nil, List.sum_cons, List.sum_nil, h3, Bool.false_eq_true, if_false]
      omega

theorem ConInv.drop (inv : ConInv b own once n₀ log cs n) {l₁ l₂ : List Packet} {p : Packet} (hf : n.flying = l₁ ++ p :: l₂)
    (hd : ¬ Listening n p.host p.srv) : ConInv b own once n₀ log cs { n with flying := l₁ ++ l₂ } := by
  refine inv.quiet (fun _ => rfl) (fun p' hp' => mem_of_split hf hp') inv.busy ?_ ?_
  · intro i hp
    refine hp.mk' rfl ?_ inv.ok inv.sizes (fun q hq _ => hq)
    intro p' hp' hl
    rcases mem_split_cases hf hp' with rfl | h
    · exact absurd ((inv.listening _ _).mpr hl) hd
    · exact Or.inl h
  · intro ho i c t hc
    rw [flyCount_split hf]
    show List.countP _ (l₁ ++ l₂) + busyCount own c t n ≤ _
    omega

theorem ConInv.done (inv : ConInv b own once n₀ log cs n) {l₁ l₂ : List Busy} {q : Busy} (hb : n.busy = l₁ ++ q :: l₂)
    (ht : q.todo = []) : ConInv b own once n₀ log cs { n with busy := l₁ ++ l₂ } := by
  refine inv.quiet (fun _ => rfl) (fun p' hp' => hp') (fun q' hq' => inv.busy q' (mem_of_split hb hq')) ?_ ?_
  · intro i hp
    refine hp.mk' rfl (fun p hp _ => Or.inl hp) inv.ok inv.sizes ?_
    intro q' hq' hh
    rcases mem_split_cases hb hq' with rfl | h
    · rw [ht] at hh; simp at hh
    · exact h
  · intro ho i c t hc
    rw [busyCount_split hb, busyCount_append (l₁ := l₁) rfl]
    show flyCount own c t n + _ ≤ _
    omega

/-- An observer other than the node is called. -/
theorem ConInv.others (inv : ConInv b own once n₀ log cs n) {l₁ l₂ : List Busy} {q : Busy} {o : ObserverRef} {os : List ObserverRef}
    (hb : n.busy = l₁ ++ q :: l₂) (ht : q.todo = o :: os) (ho : o ≠ .node) {h' : Host S} (hh : h'.node = (n.hosts q.host).node)
    {ps : List Packet} (hps : ps = []) : ConInv b own once n₀ log cs
      { n.setHost q.host h' with flying := n.flying ++ ps, busy := l₁ ++ { q with todo := os } :: l₂ } := by
  subst hps
  refine inv.quiet ?_ (by simp) ?_ ?_ ?_
  · intro c
    show ((n.setHost q.host h').hosts c).node = _
    by_cases hc : c = q.host
    · subst hc; simp [Net.setHost, hh]
    · simp [Net.setHost, hc]
  · intro q' hq'
    rcases List.mem_append.mp hq' with h | h
    · exact inv.busy q' (by rw [hb]; simp [h])
    · rcases List.mem_cons.mp h with rfl | h
      · exact inv.busy q (by rw [hb]; simp)
      · exact inv.busy q' (by rw [hb]; simp [h])
  · intro i hp
    refine hp.mk' ?_ (fun p hp _ => Or.inl (by simpa using hp)) inv.ok inv.sizes ?_
    · show ((n.setHost q.host h').hosts i).node.lastTid = _
      by_cases hc : i = q.host
      · subst hc; simp [Net.setHost, hh]
      · simp [Net.setHost, hc]
    · intro q' hq' hx
      rcases mem_split_cases hb hq' with rfl | h
      · rw [ht] at hx
        simp only [List.head?_cons, Option.some.injEq] at hx
        exact absurd hx ho
      · rcases List.mem_append.mp h with h | h <;> simp [h]
  · intro _ i c t hc
    rw [busyCount_split hb, busyCount_split (l₁ := l₁) (l₂ := l₂) (q := { q with todo := os }) rfl]
    have : os.count .node = q.todo.count .node := by rw [ht, List.count_cons_of_ne ho]
    simp only [this]
    show flyCount own c t { n.setHost q.host h' with flying := n.flying ++ [], busy := _ } + _ ≤ _
    unfold flyCount
    simp

theorem ConInv.noPanic {ω₀ : HashOrder} (hdb : standardDb b ω₀ = .ok db) (inv : ConInv b own once n₀ log cs n) {q : Busy}
    (hq : q ∈ n.busy) {e : CallEnv} (hu : ∀ i, (e.uuid i).length = 16) (o : ObserverRef) :
    (n.hosts q.host).invoke b db e q.msg o ≠ .panic := by
  obtain ⟨m, c, t, h1, ⟨h2, h3⟩ | ⟨h2, h3⟩⟩ := inv.busy q hq
  · have hr := h3.request (inv.ok c h1.mem)
    refine ask_invoke_ok hdb hr.2 h3.1.2.2.2.2 (fun _ => inv.valid _) ?_ hu o
    intro h; rw [hr.1] at h; cases h
  · obtain ⟨m1, m2, m3, m4, m5⟩ := h3
    refine ask_invoke_ok hdb m3 m5 ?_ ?_ hu o
    · intro h; rw [m2] at h; cases h
    · intro _; exact answer_not_notification m1

/-- Datagrams that are answers are no copies of requests. -/
theorem answers_no_copies {c : Call} (ok : OkCall n₀ c) (t : UInt16) {l : List Tx}
    (h : ∀ x ∈ l, ∃ v, x.bytes[10]? = some v ∧ isAnswerByte v = true) :
    l.countP (fun x => x.bytes == (c.msg.setTid t).bytes && own x.iface == some c.caller) = 0 := by
  rw [List.countP_eq_zero]
  intro x hx h1
  simp only [Bool.and_eq_true, beq_iff_eq] at h1
  obtain ⟨v, h2, h3⟩ := h x hx
  rw [h1.1, bytes_esv] at h2
  have h4 : c.msg.esvByte = v := Option.some.inj h2
  rw [← h4] at h3
  rcases ok.service with h5 | h5 <;> rw [h5] at h3 <;> exact absurd h3 (by decide)

theorem busyCount_call {c : Call} {t : UInt16} {l₁ l₂ : List Busy} {q : Busy} {os : List ObserverRef} {x y : Net S}
    (hb : x.busy = l₁ ++ q :: l₂) (ht : q.todo = .node :: os) (hy : y.busy = l₁ ++ { q with todo := os } :: l₂) :
    busyCount own c t y + (if isAsk own c t q.msg then 1 else 0) = busyCount own c t x := by
  rw [busyCount_split hb, busyCount_split hy, ht]
  simp only [List.count_cons_self]
  split <;> omega

/-- The node of the callee takes a copy of a request. -/
theorem ConInv.ask (inv : ConInv b own once n₀ log cs n) (hready : Ready b own n₀)
    (tinv : TraceInv own False n₀ (putsOf log) n) {l₁ l₂ : List Busy} {q : Busy} {os : List ObserverRef} {e : CallEnv} {h' : Host S}
    {outs : List Out} {ps : List Packet} (hb : n.busy = l₁ ++ q :: l₂) (ht : q.todo = .node :: os)
    (hfree : e.nodeFree = true) (hsock : ∀ i, e.ok i = true)
    (hi : (n.hosts q.host).invoke b db e q.msg .node = .ok (h', outs)) (hps : Delivered own n outs ps)
    (hn' : n' = { n.setHost q.host h' with flying := n.flying ++ ps, busy := l₁ ++ { q with todo := os } :: l₂ })
    (hr : Routed own n outs n') (hfit : ∀ g u, Out.handed g u ∈ outs → Fits u) (hcopies : once → NotRepeated n outs n')
    {m : Nat} {c : Call} {t : UInt16} (hc : IsCall n₀ cs m c t) (hqj : q.host = c.callee) (hask : AskOf own c t q.msg) :
    ConInv b own once n₀ (log ++ outs.map (.put q.host)) cs n' := by
  have ok := inv.ok c hc.mem
  have hq : q ∈ n.busy := by rw [hb]; simp
  have hself : n'.hosts q.host = h' := by rw [hn']; simp [Net.setHost]
  have hothers : ∀ k, k ≠ q.host → n'.hosts k = n.hosts k := by intro k hk; rw [hn']; simp [Net.setHost, hk]
  have hfly : n'.flying = n.flying ++ ps := by rw [hn']
  have hbusyeq : n'.busy = l₁ ++ { q with todo := os } :: l₂ := by rw [hn']
  clear hn'
  have hobs : (n.hosts q.host).node.observe b e.ω e.ok q.msg = .ok (h'.node, outs) := by
    rcases invoke_node hi hfree with ⟨h, _⟩ | ⟨_, h⟩
    · exact absurd rfl h
    · exact h
  have hkeys := inv.keys q.host
  have hreq := (hask.request ok).1
  obtain ⟨f1, f2, _, f4⟩ := observe_frame hobs
  have htid : h'.node.lastTid = (n.hosts q.host).node.lastTid :=
    observe_keepsTid hkeys (by rw [hask.1.2.1]; exact hc.tid) hobs
  obtain ⟨hal, hkeys'⟩ := observe_alike hkeys hobs
  have hpost := observe_post hobs
  rw [if_neg (by rw [hreq]; intro h; cases h.1)] at hpost
  obtain ⟨hpost, hdel⟩ := hpost
  have hgo := ask_invoke ok.service hc.tid hkeys hask.1 hi hfit
  have hwt := ask_tid hc.tid hkeys hask.1 hobs
  have field : ∀ {α : Type} (f : Node S → α), f h'.node = f (n.hosts q.host).node →
      ∀ k, f (n'.hosts k).node = f (n.hosts k).node := by
    intro α f hf k
    by_cases hk : k = q.host
    · subst hk; rw [hself, hf]
    · rw [hothers k hk]
  have hlast := field (fun x => x.lastTid) htid
  have hans : ∀ x ∈ txs outs, ∃ v, x.bytes[10]? = some v ∧ isAnswerByte v = true := fun x hx => (hgo x hx).2.1
  have hcount : once → ∀ i' c' t', IsCall n₀ cs i' c' t' → flyCount own c' t' n' ≤ flyCount own c' t' n := by
    intro ho i' c' t' hc'
    have h1 := hcopies ho (fun bs ip => bs == (c'.msg.setTid t').bytes && own ip == some c'.caller)
    rw [answers_no_copies (inv.ok c' hc'.mem) t' hans] at h1
    exact h1
  refine ⟨inv.ok, ?_, ?_, ?_, ?_, ?_, ?_, inv.sizes, ?_, ?_, ?_, ?_, ?_, ?_⟩
  · intro k; exact (field (fun x => x.transport) f2 k).trans (inv.transport k)
  · intro k
    by_cases hk : k = q.host
    · subst hk; rw [hself]; exact observe_valid (inv.valid _) hobs
    · rw [hothers k hk]; exact inv.valid k
  · intro k; rw [hlast k]; exact inv.tids k
  · intro k; exact (field (fun x => x.nextChan) f4 k).trans (inv.chans k)
  · intro c' hc'; have := inv.starts c' hc'; rw [List.length_append]; omega
  · intro k g u hu
    rcases List.mem_append.mp hu with hu | hu
    · exact inv.handed k g u hu
    · exact hfit g u (mem_put_map hu).2
  · intro p hp
    rcases hr p hp with h | ⟨x, hx, hb1, hb2, hb3⟩
    · exact inv.fly p h
    · obtain ⟨g1, _, g2⟩ := hgo x (mem_txs.mp hx)
      exact ⟨m, c, t, hc, Or.inr ⟨hb3 _ g1, by unfold IsPacket; rw [hb1]; exact g2 p.src⟩⟩
  · intro q' hq'
    rw [hbusyeq] at hq'
    rcases List.mem_append.mp hq' with h | h
    · exact inv.busy q' (by rw [hb]; simp [h])
    · rcases List.mem_cons.mp h with rfl | h
      · exact inv.busy q hq
      · exact inv.busy q' (by rw [hb]; simp [h])
  · intro k x hx
    rcases List.mem_append.mp hx with hx | hx
    · exact inv.only k x hx
    · obtain ⟨rfl, hy⟩ := mem_put_map hx
      have hx := mem_txs.mp hy
      exact ⟨m, c, t, hc, Or.inr ⟨hqj, (hgo x hx).1, hwt x hx, (hgo x hx).2.1⟩⟩
  · intro k ch a hx
    rcases List.mem_append.mp hx with hx | hx
    · exact inv.dels k ch a hx
    · have := mem_deliveries.mp (mem_put_map hx).2
      rw [hdel] at this; simp at this
  · intro i
    have hans0 : answersAt i (log ++ outs.map (.put q.host)) = answersAt i log := by
      rw [answersAt_append]
      by_cases hk : q.host = i
      · rw [hk, answersAt_same, hdel, List.append_nil]
      · rw [answersAt_other hk, List.append_nil]
    have hp := field (fun x => x.post) hpost i
    unfold StateOk
    rw [hans0, hp]
    rcases inv.state i with h | ⟨N, h1, h2, h3, h4⟩
    · exact Or.inl h
    · refine Or.inr ⟨N, h1, h2, h3, ?_⟩
      obtain ⟨m', c', t', k1, k2, k3, k4⟩ := h4
      refine ⟨m', c', t', k1, k2, by rw [hlast i]; exact k3, ?_⟩
      have other : ∀ q' ∈ n.busy, q' ≠ q → q' ∈ n'.busy := by
        intro q' hq' hne
        rw [hbusyeq]
        rcases mem_split_cases hb hq' with h | h
        · exact absurd h hne
        · rcases List.mem_append.mp h with h | h <;> simp [h]
      rcases k4 with ⟨p, g1, g2⟩ | ⟨q', g1, g2, g3, g4⟩ | ⟨p, g1, g2⟩ | ⟨q', g1, g2, g3, g4⟩
      · exact Or.inl ⟨p, by rw [hfly]; exact List.mem_append_left _ g1, g2⟩
      · by_cases hqq : q' = q
        · subst hqq
          have ok' := inv.ok c' k1.mem
          obtain ⟨h'', outs', e1, x, hx⟩ := ask_node (b := b) (db := db) (h := n.hosts q'.host) ok'.service
            (fun o ho => ⟨hkeys o ho, inv.valid _ o ho⟩) (by rw [g2]; exact inv.target ok')
            (by rw [inv.transport, g2]; exact ok'.asked.sends) g4.1 hfree hsock
          rw [hi] at e1
          simp only [Res.ok.injEq, Prod.mk.injEq] at e1
          obtain ⟨rfl, rfl⟩ := e1
          have hgo' := ask_invoke ok'.service k1.tid hkeys g4.1 hi hfit x hx
          obtain ⟨s, hs⟩ := ok'.asker.listens
          obtain ⟨p, e2, e3, e4, _, e5⟩ := hps.2 x (mem_txs.mpr hx) c'.caller hgo'.1 ⟨s, (inv.listening _ _).mpr hs⟩
          refine Or.inr (Or.inr (Or.inl ⟨p, by rw [hfly]; exact List.mem_append_right _ e2, e3.trans k2, ?_, ?_⟩))
          · unfold IsPacket; rw [e4]; exact hgo'.2.2 p.src
          · rw [← k2]; exact (inv.listening _ _).mp e5
        · exact Or.inr (Or.inl ⟨q', other q' g1 hqq, g2, g3, g4⟩)
      · exact Or.inr (Or.inr (Or.inl ⟨p, by rw [hfly]; exact List.mem_append_left _ g1, g2⟩))
      · refine Or.inr (Or.inr (Or.inr ⟨q', other q' g1 ?_, g2, g3, g4⟩))
        rintro rfl
        rw [g4.2.1] at hreq; cases hreq
  · intro j
    obtain ⟨w, h1, h2, h3⟩ := inv.lin j
    by_cases hj : j = q.host
    · subst hj
      obtain ⟨bytes, ⟨k, r, e1, rfl, e2, e3⟩, e4, e5, _⟩ := tinv.busy q hq
      refine ⟨w ++ [((log.length, .request q.msg), .call m c)], ?_, ?_, ?_⟩
      · rw [List.map_append]
        exact h1.observe (fun h hh => (hready.handlers _ h hh).1) (fun h hh => (hready.handlers _ h hh).2) hobs (by rw [hself])
          (mem_putsOf.mp e1) e4 e5 e2.symm e3
      · intro x hx
        rcases List.mem_append.mp hx with hx | hx
        · exact h2 x hx
        · rw [List.mem_singleton.mp hx]
          exact ⟨t, hc, hqj.symm, inv.starts c hc.mem, hask⟩
      · intro ho i' c' t' hc' hcj
        have g1 := h3 ho i' c' t' hc' hcj
        have g2 := hcount ho i' c' t' hc'
        have g3 := busyCount_call (own := own) (c := c') (t := t') hb ht hbusyeq
        rw [List.countP_append]
        by_cases hm : i' = m
        · subst hm
          obtain ⟨rfl, rfl⟩ := hc.inj hc'
          rw [if_pos (isAsk_of ok hask)] at g3
          have : List.countP (fun x : (Nat × Access) × Effect => x.2.number == some i')
              [((log.length, .request q.msg), .call i' c')] ≤ 1 := List.countP_le_length
          omega
        · have : List.countP (fun x : (Nat × Access) × Effect => x.2.number == some i')
              [((log.length, .request q.msg), .call m c)] = 0 := by
            simp [Effect.number, Ne.symm hm]
          omega
    · refine ⟨w, ?_, h2, ?_⟩
      · refine h1.frame _ (by rw [hothers j hj]) (by rw [hothers j hj]) (setsIn_puts _ _ _ _) ?_
        intro a ha
        exact absurd (mem_put_map ha).1 hj
      · intro ho i' c' t' hc' hcj
        have g1 := h3 ho i' c' t' hc' hcj
        have g2 := hcount ho i' c' t' hc'
        have g3 := busyCount_call (own := own) (c := c') (t := t') hb ht hbusyeq
        omega

/-- The node of a caller takes an answer. -/
theorem ConInv.resp (inv : ConInv b own once n₀ log cs n) {l₁ l₂ : List Busy} {q : Busy} {os : List ObserverRef} {e : CallEnv}
    {h' : Host S} {outs : List Out} {ps : List Packet} (hb : n.busy = l₁ ++ q :: l₂) (ht : q.todo = .node :: os)
    (hfree : e.nodeFree = true) (hi : (n.hosts q.host).invoke b db e q.msg .node = .ok (h', outs))
    (hn' : n' = { n.setHost q.host h' with flying := n.flying ++ ps, busy := l₁ ++ { q with todo := os } :: l₂ })
    (hr : Routed own n outs n') (hcopies : once → NotRepeated n outs n')
    {t : UInt16} (hresp : RespM t q.msg) :
    ConInv b own once n₀ (log ++ outs.map (.put q.host)) cs n' := by
  have hq : q ∈ n.busy := by rw [hb]; simp
  have hself : n'.hosts q.host = h' := by rw [hn']; simp [Net.setHost]
  have hothers : ∀ k, k ≠ q.host → n'.hosts k = n.hosts k := by intro k hk; rw [hn']; simp [Net.setHost, hk]
  have hfly : n'.flying = n.flying ++ ps := by rw [hn']
  have hbusyeq : n'.busy = l₁ ++ { q with todo := os } :: l₂ := by rw [hn']
  clear hn'
  have hobs : (n.hosts q.host).node.observe b e.ω e.ok q.msg = .ok (h'.node, outs) := by
    rcases invoke_node hi hfree with ⟨h, _⟩ | ⟨_, h⟩
    · exact absurd rfl h
    · exact h
  obtain ⟨hnode, htx, hhand⟩ := Node.observe_nonrequest hresp.2.1 hobs
  have hnode : h'.node = { (n.hosts q.host).node with post := h'.node.post } := by
    rcases hnode with h | h <;> rw [h]
  have field : ∀ {α : Type} (f : Node S → α), (∀ (x : Node S) p, f { x with post := p } = f x) →
      ∀ k, f (n'.hosts k).node = f (n.hosts k).node := by
    intro α f hf k
    by_cases hk : k = q.host
    · subst hk; rw [hself, hnode, hf]
    · rw [hothers k hk]
  have hlast := field (fun x => x.lastTid) (fun _ _ => rfl)
  have hobj := field (fun x => x.objects) (fun _ _ => rfl)
  have hpost := observe_post hobs
  obtain ⟨m1, m2, m3, m4, m5⟩ := hresp
  obtain ⟨hfm, hsz⟩ := received_fields m5
  have notx : ∀ k x, Entry.put k (.tx x) ∈ outs.map (.put q.host) → False := by
    intro k x hx
    have := mem_txs.mp (mem_put_map hx).2
    rw [htx] at this; simp at this
  have hcount : once → ∀ i' c' t', IsCall n₀ cs i' c' t' → flyCount own c' t' n' ≤ flyCount own c' t' n := by
    intro ho i' c' t' hc'
    have h1 := hcopies ho (fun bs ip => bs == (c'.msg.setTid t').bytes && own ip == some c'.caller)
    rw [htx] at h1
    exact h1
  -- what is delivered
  have hdels : ∀ ch a, Out.deliver ch a ∈ outs → (n.hosts q.host).node.post = some ch ∧ q.msg.clone = .ok a ∧
      q.msg.tid = (n.hosts q.host).node.lastTid := by
    intro ch a hx
    have hx := mem_deliveries.mp hx
    split at hpost
    · rename_i hcond
      obtain ⟨_, a', h1, h2⟩ := hpost
      rw [h2] at hx
      cases hp : (n.hosts q.host).node.post with
      | none => rw [hp] at hx; simp at hx
      | some ch' =>
        rw [hp] at hx
        simp only [Option.map_some, Option.toList_some, List.mem_cons, Prod.mk.injEq, List.not_mem_nil, or_false] at hx
        rw [hx.1, hx.2]
        exact ⟨rfl, h1, hcond.2⟩
    · rw [hpost.2] at hx; simp at hx
  refine ⟨inv.ok, ?_, ?_, ?_, ?_, ?_, ?_, inv.sizes, ?_, ?_, ?_, ?_, ?_, ?_⟩
  · intro k; exact (field (fun x => x.transport) (fun _ _ => rfl) k).trans (inv.transport k)
  · intro k; rw [hobj k]; exact inv.valid k
  · intro k; rw [hlast k]; exact inv.tids k
  · intro k; exact (field (fun x => x.nextChan) (fun _ _ => rfl) k).trans (inv.chans k)
  · intro c' hc'; have := inv.starts c' hc'; rw [List.length_append]; omega
  · intro k g u hu
    rcases List.mem_append.mp hu with hu | hu
    · exact inv.handed k g u hu
    · exfalso
      have h1 := (mem_put_map hu).2
      have : (g, u) ∈ Spec.handed outs := List.mem_filterMap.mpr ⟨_, h1, rfl⟩
      rw [hhand] at this; simp at this
  · intro p hp
    rcases hr p hp with h | ⟨x, hx, _⟩
    · exact inv.fly p h
    · have := mem_txs.mp hx
      rw [htx] at this; simp at this
  · intro q' hq'
    rw [hbusyeq] at hq'
    rcases List.mem_append.mp hq' with h | h
    · exact inv.busy q' (by rw [hb]; simp [h])
    · rcases List.mem_cons.mp h with rfl | h
      · exact inv.busy q hq
      · exact inv.busy q' (by rw [hb]; simp [h])
  · intro k x hx
    rcases List.mem_append.mp hx with hx | hx
    · exact inv.only k x hx
    · exact (notx k x hx).elim
  · intro k ch a hx
    rcases List.mem_append.mp hx with hx | hx
    · exact inv.dels k ch a hx
    · obtain ⟨rfl, hy⟩ := mem_put_map hx
      obtain ⟨g1, g2, g3⟩ := hdels ch a hy
      have hfr := clone_frame hfm hsz g2
      have he : a.esvByte = q.msg.esvByte := congrArg Frame.esv hfr
      have hti : a.tid.toNat = q.msg.tid.toNat := congrArg Frame.tid hfr
      refine ⟨by rw [he]; exact m1, ?_⟩
      rcases inv.state q.host with ⟨h1, _⟩ | ⟨N, h1, h2, _⟩
      · rw [h1] at g1; cases g1
      · rw [h2] at g1
        refine ⟨N, (Option.some.inj g1).symm, ?_⟩
        rw [hti, g3, inv.tids, h1]; omega
  · intro i
    have keep : (i ≠ q.host ∨ q.msg.tid ≠ (n.hosts i).node.lastTid) → Pending own n₀ cs n i → Pending own n₀ cs n' i := by
      rintro hne ⟨m', c', t', k1, k2, k3, k4⟩
      refine ⟨m', c', t', k1, k2, by rw [hlast i]; exact k3, ?_⟩
      have other : ∀ q' ∈ n.busy, q' ≠ q → q' ∈ n'.busy := by
        intro q' hq' hne
        rw [hbusyeq]
        rcases mem_split_cases hb hq' with h | h
        · exact absurd h hne
        · rcases List.mem_append.mp h with h | h <;> simp [h]
      rcases k4 with ⟨p, g1, g2⟩ | ⟨q', g1, g2, g3, g4⟩ | ⟨p, g1, g2⟩ | ⟨q', g1, g2, g3, g4⟩
      · exact Or.inl ⟨p, by rw [hfly]; exact List.mem_append_left _ g1, g2⟩
      · refine Or.inr (Or.inl ⟨q', other q' g1 ?_, g2, g3, g4⟩)
        rintro rfl
        have := (g4.request (inv.ok c' k1.mem)).1
        rw [m2] at this; cases this
      · exact Or.inr (Or.inr (Or.inl ⟨p, by rw [hfly]; exact List.mem_append_left _ g1, g2⟩))
      · refine Or.inr (Or.inr (Or.inr ⟨q', other q' g1 ?_, g2, g3, g4⟩))
        rintro rfl
        rcases hne with hne | hne
        · exact hne g2.symm
        · exact hne (g4.2.2.2.1.trans k3)
    by_cases hiq : i = q.host
    · subst hiq
      unfold StateOk
      rw [answersAt_append, answersAt_same, hself]
      split at hpost
      · rename_i hcond
        obtain ⟨h1, a, _, h2⟩ := hpost
        left
        refine ⟨h1, ?_⟩
        rw [h2]
        rcases inv.state q.host with ⟨g1, g2⟩ | ⟨N, g1, g2, g3, _⟩
        · rw [g1]; simpa using g2
        · rw [g2, List.map_append, g3, g1]
          simp [List.range'_concat]
      · rename_i hcond
        obtain ⟨h1, h2⟩ := hpost
        rw [h1, h2, List.append_nil]
        rcases inv.state q.host with h | ⟨N, g1, g2, g3, g4⟩
        · exact Or.inl h
        · exact Or.inr ⟨N, g1, g2, g3, keep (Or.inr (fun h => hcond ⟨m2, h⟩)) g4⟩
    · unfold StateOk
      rw [answersAt_append, answersAt_other (Ne.symm hiq), List.append_nil, hothers i hiq]
      rcases inv.state i with h | ⟨N, g1, g2, g3, g4⟩
      · exact Or.inl h
      · exact Or.inr ⟨N, g1, g2, g3, keep (Or.inl hiq) g4⟩
  · intro j
    obtain ⟨w, h1, h2, h3⟩ := inv.lin j
    refine ⟨w, ?_, h2, ?_⟩
    · refine h1.frame _ (hobj j) (field (fun x => x.handlers) (fun _ _ => rfl) j) (setsIn_puts _ _ _ _) ?_
      intro a ha
      exact (notx _ _ ha).elim
    · intro ho i' c' t' hc' hcj
      have g1 := h3 ho i' c' t' hc' hcj
      have g2 := hcount ho i' c' t' hc'
      have g3 := busyCount_call (own := own) (c := c') (t := t') hb ht hbusyeq
      omega

theorem Spec.IsCall.snoc {d c : Call} {m : Nat} {t : UInt16} (h : IsCall n₀ (cs ++ [d]) m c t) :
    IsCall n₀ cs m c t ∨ (m = cs.length ∧ c = d) := by
  have hl := h.lt
  rw [List.length_append, List.length_singleton] at hl
  by_cases hm : m < cs.length
  · left
    refine ⟨?_, ?_⟩
    · have := h.1
      rw [List.getElem?_append_left hm] at this; exact this
    · have := h.2
      rw [List.take_append_of_le_length (by omega)] at this; exact this
  · right
    have hm' : m = cs.length := by omega
    subst hm'
    have := h.1
    rw [List.getElem?_concat_length] at this
    exact ⟨rfl, (Option.some.inj this).symm⟩

/-- The state after a request was posted. -/
theorem posted {i : Nat} {m : Message} {op : HostOp S} {ip : IpAddr} {outs : List Out} (hp : Posts op ip m)
    (ha : Net.Api b db n i op outs n') (hu : (n.hosts i).node.transport.ucast ≠ []) (hm : m.tid = 0) :
    ∃ s to, s ∈ (n.hosts i).node.transport.ucast ∧ SocketAddr.ip to = ip ∧
      (∃ g, outs = [.handed g (m.setTid ((n.hosts i).node.lastTid + 1)),
        .tx ⟨s.ifaddr, to, (m.setTid ((n.hosts i).node.lastTid + 1)).bytes⟩]) ∧
      (n'.hosts i).node = { (n.hosts i).node with
        lastTid := (n.hosts i).node.lastTid + 1, post := some (n.hosts i).node.nextChan,
        nextChan := (n.hosts i).node.nextChan + 1 } ∧
      (∀ k, k ≠ i → n'.hosts k = n.hosts k) ∧ n'.busy = n.busy := by
  cases hp with
  | node to m ok hok =>
    obtain ⟨s, hs, h1, h2⟩ := post_outs hok hu to hm
    cases ha with
    | mk h' _ ps hapi hstep hps =>
      simp only [Host.step, Node.step, h1, h2, Res.bind_ok, Res.pure_eq, Res.ok.injEq, Prod.mk.injEq] at hstep
      obtain ⟨rfl, rfl⟩ := hstep
      refine ⟨s, to, hs, rfl, ⟨m, rfl⟩, ?_, ?_, rfl⟩
      · simp [Net.setHost]
      · intro k hk; simp [Net.setHost, hk]
  | controller r m ok hok =>
    obtain ⟨s, hs, h1, h2⟩ := post_outs hok hu ⟨r.addr.ip, port⟩ hm
    cases ha with
    | mk h' _ ps hapi hstep hps =>
      simp only [Host.step, Host.postMessage, Res.ok.injEq, Prod.mk.injEq] at hstep
      rw [show nodeProfileCode = profileCode from rfl] at hstep
      obtain ⟨rfl, h4⟩ := hstep
      rw [h1] at h4
      subst h4
      refine ⟨s, ⟨r.addr.ip, port⟩, hs, rfl, ⟨m.setSeoj profileCode, rfl⟩, ?_, ?_, rfl⟩
      · simp only [Net.setHost, if_true]
        rw [h2]
      · intro k hk; simp [Net.setHost, hk]

theorem answer_not_ask {e : UInt8} (h : e = 0x61 ∨ e = 0x62) : isAnswerByte e = false := by
  rcases h with rfl | rfl <;> decide

theorem ConInv.post (inv : ConInv b own once n₀ log cs n) (hready : Ready b own n₀) {i j : Nat} {m : Message} {op : HostOp S}
    {to : IpAddr} {outs : List Out} (hwait : (answersAt i log).length = callsBy i cs)
    (hp : Posts op to m) (hto : own to = some j) (ha : Net.Api b db n i op outs n') (hm0 : m.tid = 0)
    (hdel : ∃ ps, n'.flying = n.flying ++ ps ∧ Delivered own n outs ps) (hr : Routed own n outs n')
    (hfit : ∀ g u, Out.handed g u ∈ outs → Fits u) (hcopies : once → NotRepeated n outs n')
    (ok : OkCall n₀ ⟨i, j, m, log.length⟩)
    (hwrap : (n₀.hosts i).node.lastTid.toNat + callsBy i (cs ++ [⟨i, j, m, log.length⟩]) < 65536) :
    ConInv b own once n₀ (log ++ outs.map (.put i)) (cs ++ [⟨i, j, m, log.length⟩]) n' := by
  obtain ⟨s, to', hs, hip, ⟨g, hout⟩, hni, hoth, hbusy⟩ := posted hp ha (by rw [inv.transport]; exact ok.asker.sends) hm0
  generalize hd : (⟨i, j, m, log.length⟩ : Call) = d at *
  have hdi : d.caller = i := by rw [← hd]
  have hdj : d.callee = j := by rw [← hd]
  have hdm : d.msg = m := by rw [← hd]
  have hds : d.start = log.length := by rw [← hd]
  generalize htn : (n.hosts i).node.lastTid + 1 = t at *
  have hown : own s.ifaddr = some i := by
    refine hready.rest.own i s ?_
    unfold Host.threads
    rw [← inv.transport]; simp [hs]
  have hcalls : ∀ k, callsBy k (cs ++ [d]) = callsBy k cs + if i = k then 1 else 0 := by
    intro k; rw [callsBy_append, callsBy_one, hdi]
  have htv : t.toNat = (n₀.hosts i).node.lastTid.toNat + callsBy i cs + 1 := by
    have h1 := inv.tids i
    have h2 := hwrap
    rw [hcalls, if_pos rfl] at h2
    rw [← htn, UInt16.toNat_add, h1]
    show (_ + 1) % 65536 = _
    omega
  have hnew : IsCall n₀ (cs ++ [d]) cs.length d t := by
    refine ⟨List.getElem?_concat_length, ?_⟩
    rw [List.take_left, hdi]; exact htv
  have hinv : ∀ m' c' t', IsCall n₀ (cs ++ [d]) m' c' t' → IsCall n₀ cs m' c' t' ∨ (m' = cs.length ∧ c' = d ∧ t' = t) := by
    intro m' c' t' h
    rcases Spec.IsCall.snoc h with h1 | ⟨h1, h2⟩
    · exact Or.inl h1
    · subst h1
      exact Or.inr ⟨rfl, h2, (hnew.inj h).2⟩
  have hsize : Fits (m.setTid t) := hfit g _ (by rw [hout]; simp)
  have htx : ∀ x, Out.tx x ∈ outs → x.iface = s.ifaddr ∧ x.to = to' ∧ x.bytes = (m.setTid t).bytes := by
    intro x hx
    rw [hout] at hx
    simp only [List.mem_cons, reduceCtorEq, Out.tx.injEq, List.not_mem_nil, or_false, false_or] at hx
    subst hx
    exact ⟨rfl, rfl, rfl⟩
  have htxs : txs outs = [⟨s.ifaddr, to', (m.setTid t).bytes⟩] := by rw [hout]; rfl
  have hdel0 : deliveries outs = [] := by rw [hout]; rfl
  have field : ∀ {α : Type} (f : Node S → α), (∀ (x : Node S) t p c, f { x with lastTid := t, post := p, nextChan := c } = f x) →
      ∀ q, f (n'.hosts q).node = f (n.hosts q).node := by
    intro α f hf q
    by_cases hq : q = i
    · rw [hq, hni, hf]
    · rw [hoth q hq]
  have hser : m.esvByte = 0x61 ∨ m.esvByte = 0x62 := by rw [← hdm]; exact ok.service
  -- the TID is new
  have fresh : ∀ m' c' t', IsCall n₀ cs m' c' t' → c'.caller = i → t' ≠ t := by
    rintro m' c' t' h1 h2 rfl
    have := (hnew.unique (h1.mono d) (h2.trans hdi.symm)).1
    have := h1.lt
    omega
  have hfly0 : flyCount own d t n = 0 := by
    unfold flyCount
    rw [List.countP_eq_zero]
    intro p hpf hx
    simp only [Bool.and_eq_true, beq_iff_eq] at hx
    obtain ⟨m', c', t', h1, ⟨h2, h3, h4⟩ | ⟨h2, y, h3, h4⟩⟩ := inv.fly p hpf
    · refine fresh m' c' t' h1 ?_ ?_
      · rw [hx.2] at h4; exact (Option.some.inj h4).symm.trans hdi
      · have e := (wire_bytes (c'.msg.setTid t')).1
        rw [← h3, hx.1, (wire_bytes (d.msg.setTid t)).1, setTid_tid, setTid_tid] at e
        exact (UInt16.toNat_inj.mp e).symm
    · obtain ⟨z, k1, _, k2⟩ := ask_received ok (by rw [hdm]; exact hsize) (src := p.src) hx.2
      rw [hx.1, k1] at h3
      simp only [Prod.mk.injEq, List.cons.injEq, and_true] at h3
      rw [← h3] at h4
      have := (k2.request ok).1
      rw [h4.2.1] at this; cases this
  have hbusy0 : busyCount own d t n = 0 := by
    unfold busyCount
    have : ∀ q ∈ n.busy, isAsk own d t q.msg = false := by
      intro q hq
      cases hx : isAsk own d t q.msg with
      | false => rfl
      | true =>
        exfalso
        simp only [isAsk, Bool.and_eq_true, beq_iff_eq] at hx
        obtain ⟨m', c', t', h1, ⟨h2, h3⟩ | ⟨h2, h3⟩⟩ := inv.busy q hq
        · refine fresh m' c' t' h1 ?_ ?_
          · have := h3.1.2.2.2.1
            rw [hx.1.2] at this
            exact (Option.some.inj this).symm.trans hdi
          · rw [← h3.1.2.1]; exact hx.2
        · rw [h3.2.1] at hx; exact absurd hx.1.1 (by decide)
    have e : n.busy.map (fun q => if isAsk own d t q.msg then q.todo.count .node else 0) = n.busy.map (fun _ => 0) := by
      apply List.map_congr_left
      intro q hq
      rw [this q hq]; rfl
    rw [e]
    clear e this
    induction n.busy with
    | nil => rfl
    | cons x l ih => simpa using ih
  have hbusyc : ∀ c' t', busyCount own c' t' n' = busyCount own c' t' n := by
    intro c' t'; unfold busyCount; rw [hbusy]
  have hflyc : once → ∀ c' t', flyCount own c' t' n' ≤ flyCount own c' t' n +
      if ((m.setTid t).bytes == (c'.msg.setTid t').bytes && own s.ifaddr == some c'.caller) = true then 1 else 0 := by
    intro ho c' t'
    have h1 := hcopies ho (fun bs ip => bs == (c'.msg.setTid t').bytes && own ip == some c'.caller)
    rw [htxs] at h1
    simp only [List.countP_cons, List.countP_nil, Nat.zero_add] at h1
    exact h1
  have monoFly : ∀ p, FlyOk own n₀ cs p → FlyOk own n₀ (cs ++ [d]) p := by
    rintro p ⟨m', c', t', h1, h2⟩; exact ⟨m', c', t', h1.mono d, h2⟩
  have hpend : ∀ k, k ≠ i → Pending own n₀ cs n k → Pending own n₀ (cs ++ [d]) n' k := by
    rintro k hk ⟨m', c', t', k1, k2, k3, k4⟩
    refine ⟨m', c', t', k1.mono d, k2, by rw [hoth k hk]; exact k3, ?_⟩
    obtain ⟨ps, hfl, _⟩ := hdel
    rw [hfl, hbusy]
    rcases k4 with ⟨p, g1, g2⟩ | h | ⟨p, g1, g2⟩ | h
    · exact Or.inl ⟨p, List.mem_append_left _ g1, g2⟩
    · exact Or.inr (Or.inl h)
    · exact Or.inr (Or.inr (Or.inl ⟨p, List.mem_append_left _ g1, g2⟩))
    · exact Or.inr (Or.inr (Or.inr h))
  refine ⟨?_, ?_, ?_, ?_, ?_, ?_, ?_, ?_, ?_, ?_, ?_, ?_, ?_, ?_⟩
  · intro c hc
    rcases List.mem_append.mp hc with hc | hc
    · exact inv.ok c hc
    · rw [List.mem_singleton.mp hc]; exact ok
  · intro k; exact (field (fun x => x.transport) (fun _ _ _ _ => rfl) k).trans (inv.transport k)
  · intro k; rw [field (fun x => x.objects) (fun _ _ _ _ => rfl) k]; exact inv.valid k
  · intro k
    rw [hcalls]
    by_cases hk : i = k
    · subst hk
      rw [hni, if_pos rfl, ← Nat.add_assoc]
      show t.toNat = _
      exact htv
    · rw [hoth k (Ne.symm hk), if_neg hk]; exact inv.tids k
  · intro k
    rw [hcalls]
    by_cases hk : i = k
    · subst hk
      rw [hni, if_pos rfl, ← Nat.add_assoc, ← inv.chans]
    · rw [hoth k (Ne.symm hk), if_neg hk]; exact inv.chans k
  · intro c hc
    have hlen : 2 = outs.length := by rw [hout]; rfl
    rw [List.length_append, List.length_map, ← hlen]
    rcases List.mem_append.mp hc with hc | hc
    · have := inv.starts c hc; omega
    · rw [List.mem_singleton.mp hc, hds]; omega
  · intro k g' u hu
    rcases List.mem_append.mp hu with hu | hu
    · exact inv.handed k g' u hu
    · exact hfit g' u (mem_put_map hu).2
  · intro m' c' t' h
    rcases hinv m' c' t' h with h | ⟨_, rfl, rfl⟩
    · exact inv.sizes m' c' t' h
    · rw [hdm]; exact hsize
  · intro p hpf
    rcases hr p hpf with h | ⟨x, hx, h1, h2, h3⟩
    · exact monoFly p (inv.fly p h)
    · obtain ⟨e1, e2, e3⟩ := htx x hx
      refine ⟨cs.length, d, t, hnew, Or.inl ⟨?_, ?_, ?_⟩⟩
      · rw [hdj]; exact h3 j (by rw [e2, hip]; exact hto)
      · rw [hdm, h1, e3]
      · rw [hdi, h2, e1]; exact hown
  · intro q hq
    rw [hbusy] at hq
    obtain ⟨m', c', t', h1, h2⟩ := inv.busy q hq
    exact ⟨m', c', t', h1.mono d, h2⟩
  · intro k x hx
    rcases List.mem_append.mp hx with hx | hx
    · obtain ⟨m', c', t', h1, h2⟩ := inv.only k x hx
      exact ⟨m', c', t', h1.mono d, h2⟩
    · obtain ⟨hk, hy⟩ := mem_put_map hx
      exact ⟨cs.length, d, t, hnew, Or.inl ⟨hk.trans hdi.symm, by rw [hdm]; exact (htx x hy).2.2⟩⟩
  · intro k ch a hx
    rcases List.mem_append.mp hx with hx | hx
    · exact inv.dels k ch a hx
    · have := mem_deliveries.mp (mem_put_map hx).2
      rw [hdel0] at this; simp at this
  · intro k
    have hans0 : answersAt k (log ++ outs.map (.put i)) = answersAt k log := by
      rw [answersAt_append]
      by_cases hk : i = k
      · rw [hk, answersAt_same, hdel0, List.append_nil]
      · rw [answersAt_other hk, List.append_nil]
    unfold StateOk
    rw [hans0, hcalls]
    by_cases hk : i = k
    · subst hk
      rw [if_pos rfl]
      right
      have hlen : ∀ N, (answersAt i log).map (fun x => x.1) = List.range' (n₀.hosts i).node.nextChan N → N = callsBy i cs := by
        intro N h
        have := congrArg List.length h
        rw [List.length_map, List.length_range', hwait] at this
        exact this.symm
      refine ⟨callsBy i cs, rfl, by rw [hni, ← inv.chans], ?_, ?_⟩
      · rcases inv.state i with ⟨_, h⟩ | ⟨N, h1, _, h3, _⟩
        · exact h
        · have := hlen N h3; omega
      · refine ⟨cs.length, d, t, hnew, hdi, by rw [hni], Or.inl ?_⟩
        obtain ⟨ps, hfl, hdl⟩ := hdel
        obtain ⟨sl, hsl⟩ := ok.asked.listens
        rw [hdj] at hsl
        obtain ⟨p, g1, g2, g3, g4, g5⟩ := hdl.2 ⟨s.ifaddr, to', (m.setTid t).bytes⟩ (by rw [hout]; simp) j (by
          show own to'.ip = some j
          rw [hip]; exact hto) ⟨sl, (inv.listening _ _).mpr hsl⟩
        refine ⟨p, by rw [hfl]; exact List.mem_append_right _ g1, g2.trans hdj.symm, by rw [hdm]; exact g3, by rw [g4]; exact hown, ?_⟩
        rw [g2]; exact (inv.listening _ _).mp g5
    · rw [if_neg hk, hoth k (Ne.symm hk)]
      rcases inv.state k with h | ⟨N, g1, g2, g3, g4⟩
      · exact Or.inl h
      · exact Or.inr ⟨N, g1, g2, g3, hpend k (Ne.symm hk) g4⟩
  · intro k
    obtain ⟨w, h1, h2, h3⟩ := inv.lin k
    refine ⟨w, ?_, ?_, ?_⟩
    · refine h1.frame _ (field (fun x => x.objects) (fun _ _ _ _ => rfl) k) (field (fun x => x.handlers) (fun _ _ _ _ => rfl) k)
        (setsIn_puts _ _ _ _) ?_
      rintro a ha' ⟨v, hv1, hv2⟩
      rw [(htx a (mem_put_map ha').2).2.2, bytes_esv] at hv1
      have h4 : m.esvByte = v := Option.some.inj hv1
      rw [← h4, answer_not_ask hser] at hv2
      cases hv2
    · rintro ⟨⟨tm, ac⟩, ef⟩ hx
      have := h2 _ hx
      cases ac with
      | set oc c' d' => cases ef <;> exact this
      | request q =>
        cases ef with
        | set => exact this
        | call m' c' =>
          obtain ⟨t', k1, k2⟩ := this
          exact ⟨t', k1.mono d, k2⟩
    · intro ho m' c' t' hc' hcj
      have g2 := hflyc ho c' t'
      rw [hbusyc]
      rcases hinv m' c' t' hc' with h | ⟨rfl, rfl, rfl⟩
      · have g1 := h3 ho m' c' t' h hcj
        rw [if_neg] at g2
        · omega
        · intro hx
          simp only [Bool.and_eq_true, beq_iff_eq] at hx
          refine fresh m' c' t' h ?_ ?_
          · rw [hown] at hx; exact (Option.some.inj hx.2).symm
          · have e := (wire_bytes (m.setTid t)).1
            rw [hx.1, (wire_bytes (c'.msg.setTid t')).1, setTid_tid, setTid_tid] at e
            exact UInt16.toNat_inj.mp e
      · have hw : w.countP (fun x => x.2.number == some cs.length) = 0 := by
          rw [List.countP_eq_zero]
          rintro ⟨⟨tm, ac⟩, ef⟩ hx he
          have := h2 _ hx
          cases ef with
          | set => simp [Effect.number] at he
          | call m' c'' =>
            simp only [Effect.number, beq_iff_eq, Option.some.injEq] at he
            subst he
            cases ac with
            | set => exact this
            | request q =>
              obtain ⟨t', k1, _⟩ := this
              have := k1.lt
              omega
        rw [hfly0] at g2
        rw [hbusy0, hw]
        split at g2 <;> omega

theorem ConInv.set (inv : ConInv b own once n₀ log cs n) {k : Nat} {oc : UInt32} {c : UInt8} {d : List UInt8} {outs : List Out}
    (h : Net.Api b db n k (.node (.setProperty oc c d)) outs n') : ConInv b own once n₀ (log ++ [.set k oc c d]) cs n' := by
  cases h with
  | mk h' _ ps ha hs hps =>
    simp only [Host.step, Node.step, Res.bind_ok, Res.pure_eq, Res.ok.injEq, Prod.mk.injEq] at hs
    obtain ⟨rfl, rfl⟩ := hs
    have hps0 : ps = [] := by
      cases ps with
      | nil => rfl
      | cons p ps =>
        obtain ⟨t, ht, _⟩ := hps p (by simp)
        cases ht
    subst hps0
    generalize hy : (n.hosts k).node.setProperty oc c d = y
    have hfr : y.2 = { (n.hosts k).node with objects := y.2.objects } := by rw [← hy]; exact setProperty_frame _ _ _ _
    generalize hx : { n.setHost k { n.hosts k with node := y.2 } with flying := n.flying ++ [] } = n'
    have hself : (n'.hosts k).node = y.2 := by rw [← hx]; simp [Net.setHost]
    have hoth : ∀ q, q ≠ k → n'.hosts q = n.hosts q := by intro q hq; rw [← hx]; simp [Net.setHost, hq]
    have hfly : n'.flying = n.flying := by rw [← hx]; simp
    have hbusy : n'.busy = n.busy := by rw [← hx]; rfl
    have field : ∀ {α : Type} (f : Node S → α), (∀ (m : Node S) os, f { m with objects := os } = f m) →
        ∀ q, f (n'.hosts q).node = f (n.hosts q).node := by
      intro α f hf q
      by_cases hq : q = k
      · rw [hq, hself, hfr, hf]
      · rw [hoth q hq]
    have hlast := field (fun m => m.lastTid) (fun _ _ => rfl)
    have hpo := field (fun m => m.post) (fun _ _ => rfl)
    refine ⟨inv.ok, ?_, ?_, ?_, ?_, ?_, ?_, inv.sizes, by rw [hfly]; exact inv.fly, by rw [hbusy]; exact inv.busy, ?_, ?_, ?_, ?_⟩
    · intro q; exact (field (fun m => m.transport) (fun _ _ => rfl) q).trans (inv.transport q)
    · intro q
      by_cases hq : q = k
      · subst hq
        rw [hself, ← hy]
        intro o ho
        unfold Node.setProperty at ho
        split at ho
        · exact inv.valid q o ho
        · split at ho
          · exact inv.valid q o ho
          · exact updateObject_valid (fun o ho => setPropertyData_valid ho _ _) _ (inv.valid q) o ho
      · rw [hoth q hq]; exact inv.valid q
    · intro q; rw [hlast q]; exact inv.tids q
    · intro q; exact (field (fun m => m.nextChan) (fun _ _ => rfl) q).trans (inv.chans q)
    · intro c' hc'; have := inv.starts c' hc'; rw [List.length_append]; omega
    · intro k' g u hu
      rcases List.mem_append.mp hu with hu | hu
      · exact inv.handed k' g u hu
      · simp at hu
    · intro k' x hx
      rcases List.mem_append.mp hx with hx | hx
      · exact inv.only k' x hx
      · simp at hx
    · intro k' ch a hx
      rcases List.mem_append.mp hx with hx | hx
      · exact inv.dels k' ch a hx
      · simp at hx
    · intro i
      have : answersAt i (log ++ [.set k oc c d]) = answersAt i log := by
        rw [answersAt_append]; simp [answersAt]
      unfold StateOk
      rw [this, hpo i]
      rcases inv.state i with h | ⟨N, g1, g2, g3, g4⟩
      · exact Or.inl h
      · exact Or.inr ⟨N, g1, g2, g3, g4.mk' (hlast i) (fun p hp _ => Or.inl (by rw [hfly]; exact hp)) inv.ok inv.sizes
          (fun q hq _ => by rw [hbusy]; exact hq)⟩
    · intro j
      obtain ⟨w, h1, h2, h3⟩ := inv.lin j
      have hcnt : ∀ c' t', flyCount own c' t' n' = flyCount own c' t' n ∧ busyCount own c' t' n' = busyCount own c' t' n := by
        intro c' t'; unfold flyCount busyCount; rw [hfly, hbusy]; exact ⟨rfl, rfl⟩
      by_cases hj : j = k
      · subst hj
        refine ⟨w ++ [((log.length, .set oc c d), .set oc c d)], ?_, ?_, ?_⟩
        · rw [List.map_append]
          exact h1.setValue oc c d (by rw [hself, ← hy])
        · intro x hx
          rcases List.mem_append.mp hx with hx | hx
          · exact h2 x hx
          · rw [List.mem_singleton.mp hx]; exact ⟨rfl, rfl, rfl⟩
        · intro ho m' c' t' hc' hcj
          rw [(hcnt c' t').1, (hcnt c' t').2, List.countP_append]
          exact h3 ho m' c' t' hc' hcj
      · refine ⟨w, ?_, h2, ?_⟩
        · refine h1.frame _ (by rw [hoth j hj]) (by rw [hoth j hj]) ?_ (by simp)
          have := setsIn_other (j := j) (i := k) (Ne.symm hj) log (HostOp.node (.setProperty oc c d) : HostOp S) []
          simpa [setBy] using this
        · intro ho m' c' t' hc' hcj
          rw [(hcnt c' t').1, (hcnt c' t').2]
          exact h3 ho m' c' t' hc' hcj

end

/-- The invariant holds in all executions, and no observer panics. -/
theorem concurrent_both {b : Build} {ω₀ : HashOrder} {db : Database} (hdb : standardDb b ω₀ = .ok db)
    {own : IpAddr → Option Nat} {once : Prop} {n₀ n : Net S} {log : List Entry} {cs : List Call} (hready : Ready b own n₀)
    (hidle : ∀ k, (n₀.hosts k).node.post = none) (hone : once → CalledOnce n₀) (h : Concurrent b db own once n₀ log cs n)
    (hcalls : ∀ c ∈ cs, Running n₀ c.caller ∧ Running n₀ c.callee ∧ ∃ o ∈ (n₀.hosts c.callee).node.objects, o.code = c.msg.deoj)
    (htids : ∀ i, (n₀.hosts i).node.lastTid.toNat + callsBy i cs < 65536) :
    ConInv b own once n₀ log cs n ∧ n.poisoned = n₀.poisoned := by
  induction h with
  | start =>
    refine ⟨⟨by simp, fun _ => rfl, fun k o ho => (hready.objects k o ho).2, fun _ => rfl, fun _ => rfl, by simp, by simp, ?_, ?_, ?_,
      by simp, by simp, fun i => Or.inl ⟨hidle i, rfl⟩, ?_⟩, rfl⟩
    · intro m c t h; exact absurd h.lt (by simp)
    · rw [hready.rest.flying]; simp
    · rw [hready.rest.busy]; simp
    · intro j
      refine ⟨[], ⟨⟨List.Pairwise.nil, by simp, rfl, by simp⟩, by simp, rfl, .refl _, fun o ho => (hready.objects j o ho).1, ?_⟩,
        by simp, ?_⟩
      · intro o ho
        exact ⟨fun o ho => (hready.objects j o ho).1, o, ho, fun _ => rfl, fun _ _ => rfl⟩
      · intro _ m c t h; exact absurd h.lt (by simp)
  | @step log cs n n' k outs hx hstep hr hfit hcopies ih =>
    obtain ⟨inv, hpz⟩ := ih hcalls htids
    have noinf : ∀ q ∈ n.busy, ∀ o, n.poisoned q.host o = false := by
      intro q hq o
      obtain ⟨m, c, t, hc, ⟨h1, _⟩ | ⟨h1, _⟩⟩ := inv.busy q hq
      · rw [hpz, h1]; exact (inv.ok c hc.mem).asked.sound o
      · rw [hpz, h1]; exact (inv.ok c hc.mem).asker.sound o
    have tinv := traced_inv (plain := False) (fun h => h.elim) hready.rest (logged_traced (concurrent_logged hx 0))
    cases hstep with
    | receive l₁ l₂ p s hf hs hrun hbusy =>
      refine ⟨by simpa using inv.receive hone hf hs, ?_⟩
      unfold Net.received
      split <;> exact hpz
    | drop l₁ l₂ p hf hd => exact ⟨by simpa using inv.drop hf hd, hpz⟩
    | done l₁ l₂ q hb ht => exact ⟨by simpa using inv.done hb ht, hpz⟩
    | infected l₁ l₂ q o os hb ht hpo => rw [noinf q (by rw [hb]; simp)] at hpo; cases hpo
    | skip l₁ l₂ q o os hb ht hpo hm => rw [noinf q (by rw [hb]; simp)] at hpo; cases hpo
    | die l₁ l₂ q o os ev hb ht hpo hu hfree hok hinv =>
      exact absurd hinv (inv.noPanic hdb (by rw [hb]; simp) hu o)
    | call l₁ l₂ q o os ev h' outs ps hb ht hpo hu hfree hok hinv hps =>
      refine ⟨?_, hpz⟩
      by_cases ho : o = .node
      · subst ho
        obtain ⟨m, c, t, hc, ⟨h1, h2⟩ | ⟨h1, h2⟩⟩ := inv.busy q (by rw [hb]; simp)
        · exact inv.ask hready tinv hb ht hfree.1 hok hinv hps rfl hr hfit hcopies hc h1 h2
        · exact inv.resp hb ht hfree.1 hinv rfl hr hcopies h2
      · rcases invoke_node hinv hfree.1 with ⟨_, h1, rfl⟩ | ⟨h1, _⟩
        · have hps0 : ps = [] := by
            cases ps with
            | nil => rfl
            | cons p ps =>
              obtain ⟨t, ht, _⟩ := hps.1 p (by simp)
              cases ht
          simpa using inv.others hb ht ho h1 hps0
        · exact absurd h1 ho
  | @post log cs n n' i j m op to outs hx waits format service noTid hp hto ha hdel hr hfit hcopies ih =>
    obtain ⟨inv, hpz⟩ := ih (fun c hc => hcalls c (List.mem_append_left _ hc)) (fun i => by
      have := htids i; rw [callsBy_append] at this; omega)
    obtain ⟨r1, r2, r3⟩ := hcalls ⟨i, j, m, log.length⟩ (List.mem_append_right _ (List.mem_singleton.mpr rfl))
    refine ⟨?_, by cases ha; exact hpz⟩
    exact inv.post hready waits hp hto ha noTid hdel hr hfit hcopies ⟨service, format, r1, r2, r3⟩ (htids i)
  | set k oc c d hx ha ih =>
    obtain ⟨inv, hpz⟩ := ih hcalls htids
    exact ⟨inv.set ha, by cases ha; exact hpz⟩

/-- The invariant holds in all executions. -/
theorem concurrent_inv {b : Build} {ω₀ : HashOrder} {db : Database} (hdb : standardDb b ω₀ = .ok db)
    {own : IpAddr → Option Nat} {once : Prop} {n₀ n : Net S} {log : List Entry} {cs : List Call} (hready : Ready b own n₀)
    (hidle : ∀ k, (n₀.hosts k).node.post = none) (hone : once → CalledOnce n₀) (h : Concurrent b db own once n₀ log cs n)
    (hcalls : ∀ c ∈ cs, Running n₀ c.caller ∧ Running n₀ c.callee ∧ ∃ o ∈ (n₀.hosts c.callee).node.objects, o.code = c.msg.deoj)
    (htids : ∀ i, (n₀.hosts i).node.lastTid.toNat + callsBy i cs < 65536) : ConInv b own once n₀ log cs n :=
  (concurrent_both hdb hready hidle hone h hcalls htids).1

/-! ## C86 -/

theorem nodup_numbers {α : Type} (f : α → Option Nat) (l : List α)
    (h : ∀ m, m ∈ l.filterMap f → l.countP (fun x => f x == some m) ≤ 1) : (l.filterMap f).Nodup := by
  induction l with
  | nil => exact List.Pairwise.nil
  | cons a l ih =>
    have ih' : (l.filterMap f).Nodup := by
      refine ih (fun m hm => ?_)
      have := h m (by
        obtain ⟨x, hx, he⟩ := List.mem_filterMap.mp hm
        exact List.mem_filterMap.mpr ⟨x, List.mem_cons_of_mem _ hx, he⟩)
      rw [List.countP_cons] at this
      omega
    cases ha : f a with
    | none => rw [List.filterMap_cons_none ha]; exact ih'
    | some k =>
      rw [List.filterMap_cons_some ha]
      refine List.nodup_cons.mpr ⟨?_, ih'⟩
      intro hk
      have h1 := h k (List.mem_filterMap.mpr ⟨a, List.mem_cons_self, ha⟩)
      rw [List.countP_cons, if_pos (by simp [ha])] at h1
      obtain ⟨x, hx, he⟩ := List.mem_filterMap.mp hk
      have : 0 < l.countP (fun x => f x == some k) := List.countP_pos_iff.mpr ⟨x, hx, by simp [he]⟩
      omega

theorem matched_sets {own : IpAddr → Option Nat} {n₀ : Net S} {cs : List Call} {j : Nat} (w : List ((Nat × Access) × Effect))
    (h : ∀ x ∈ w, Matched own n₀ cs j x) :
    setsOf ((w.map (fun x => (x.1.1, x.2))).map (fun x => (x.1, x.2.access))) = setsOf (w.map (fun x => x.1)) := by
  induction w with
  | nil => rfl
  | cons x w ih =>
    have ih := ih (fun y hy => h y (List.mem_cons_of_mem _ hy))
    have hx := h x List.mem_cons_self
    obtain ⟨⟨tm, ac⟩, ef⟩ := x
    unfold setsOf at ih ⊢
    cases ac with
    | request q =>
      cases ef with
      | call m c => simp only [List.map_cons, List.filterMap_cons, Effect.access]; exact ih
      | set => exact hx.elim
    | set oc c d =>
      cases ef with
      | call m c => exact hx.elim
      | set oc' c' d' =>
        obtain ⟨rfl, rfl, rfl⟩ := hx
        simp only [List.map_cons, List.filterMap_cons, Effect.access]; exact congrArg _ ih

theorem matched_values {own : IpAddr → Option Nat} {n₀ : Net S} {cs : List Call} {j : Nat} (hok : ∀ c ∈ cs, OkCall n₀ c)
    (hs : List (Handler S)) (o : Object) (w : List ((Nat × Access) × Effect)) (h : ∀ x ∈ w, Matched own n₀ cs j x) (v : Values) :
    (w.map (fun x => x.1.2)).foldl (Values.access hs o) v = (w.map (fun x => x.2.access)).foldl (Values.access hs o) v := by
  induction w generalizing v with
  | nil => rfl
  | cons x w ih =>
    have hx := h x List.mem_cons_self
    obtain ⟨⟨tm, ac⟩, ef⟩ := x
    simp only [List.map_cons, List.foldl_cons]
    have : v.access hs o ac = v.access hs o ef.access := by
      cases ac with
      | request q =>
        cases ef with
        | call m c =>
          obtain ⟨t, h1, _, _, h4⟩ := hx
          exact same_judged h4.same (hok c h1.mem).service o hs v
        | set => exact hx.elim
      | set oc c d =>
        cases ef with
        | call m c => exact hx.elim
        | set oc' c' d' =>
          obtain ⟨rfl, rfl, rfl⟩ := hx
          rfl
    rw [this]
    exact ih (fun y hy => h y (List.mem_cons_of_mem _ hy)) _

theorem reads_answer {a : Message} {x : Tx} (hr : Reads a x.bytes) (hv : (frameOf a).Valid) :
    x.bytes[10]? = some a.esvByte ∧ wireTid x.bytes = a.tid.toNat := by
  obtain ⟨rest, hrest⟩ := hr
  obtain ⟨h1, _, _, h2⟩ := wire_frame hv hrest
  exact ⟨h2, h1⟩

/-- C86. Any hosts make any number of calls to any hosts (also to themselves) at the same time, and applications set values meanwhile. For
every host there is an order in which the calls made to it and the values set take effect: each call after it was made and
before its answer arrives (exactly once if the network repeats nothing), each value when it was set; the answers say what the
objects say if they see everything in this order; and the objects hold the values that result. -/
theorem C86_linearizable (b : Build) (ω₀ : HashOrder) (db : Database) (hdb : standardDb b ω₀ = .ok db)
    (own : IpAddr → Option Nat) (once : Prop) (n₀ n : Net S) (log : List Entry) (cs : List Call) (hready : Ready b own n₀)
    (hidle : ∀ k, (n₀.hosts k).node.post = none) (hone : once → CalledOnce n₀) (h : Concurrent b db own once n₀ log cs n)
    (hcalls : ∀ c ∈ cs, Running n₀ c.caller ∧ Running n₀ c.callee ∧ ∃ o ∈ (n₀.hosts c.callee).node.objects, o.code = c.msg.deoj)
    (htids : ∀ i, (n₀.hosts i).node.lastTid.toNat + callsBy i cs < 65536) (j : Nat) :
    ∃ l, Effects once (n₀.hosts j).node.handlers (n₀.hosts j).node.objects (fun i => (n₀.hosts i).node.nextChan) j log cs l ∧
      ∀ o, findObject (n₀.hosts j).node.objects o.code = some o → ∀ c, isMapCode c = false →
        (n.hosts j).node.property o.code c =
          valuesAfter (n₀.hosts j).node.handlers o (l.map (fun x => x.2.access)) c := by
  have inv := concurrent_inv hdb hready hidle hone h hcalls htids
  have tinv := traced_inv (plain := False) (fun h => h.elim) hready.rest (logged_traced (concurrent_logged h 0))
  obtain ⟨w, lin, hmat, hcnt⟩ := inv.lin j
  have hvals : ∀ w' : List ((Nat × Access) × Effect), (∀ x ∈ w', x ∈ w) → ∀ o,
      valuesAfter (n₀.hosts j).node.handlers o ((w'.map (fun x => x.1)).map (fun x => x.2)) =
        valuesAfter (n₀.hosts j).node.handlers o ((w'.map (fun x => (x.1.1, x.2))).map (fun x => x.2.access)) := by
    intro w' hw o
    rw [List.map_map, List.map_map]
    exact matched_values inv.ok _ o w' (fun x hx => hmat x (hw x hx)) _
  refine ⟨w.map (fun x => (x.1.1, x.2)), ⟨?_, ?_, ?_, ?_, ?_⟩, ?_⟩
  · have := lin.ex.ordered
    rw [List.pairwise_map] at this ⊢
    exact this
  · rw [matched_sets w hmat]; exact lin.ex.sets
  · intro t m c hm
    obtain ⟨⟨⟨tm, ac⟩, ef⟩, hx, he⟩ := List.mem_map.mp hm
    simp only [Prod.mk.injEq] at he
    obtain ⟨rfl, rfl⟩ := he
    have hb := lin.before _ (List.mem_map_of_mem hx)
    have := hmat _ hx
    cases ac with
    | set => exact this.elim
    | request q =>
      obtain ⟨t, h1, h2, h3, _⟩ := this
      exact ⟨h1.1, h2, h3, hb⟩
  · intro ho
    have e : (w.map (fun x => (x.1.1, x.2))).filterMap (fun x => x.2.number) = w.filterMap (fun x => x.2.number) := by
      rw [List.filterMap_map]; rfl
    rw [e]
    refine nodup_numbers _ _ ?_
    intro m hm
    obtain ⟨⟨⟨tm, ac⟩, ef⟩, hx, he⟩ := List.mem_filterMap.mp hm
    have := hmat _ hx
    cases ef with
    | set => simp [Effect.number] at he
    | call m' c =>
      simp only [Effect.number, Option.some.injEq] at he
      subst he
      cases ac with
      | set => exact this.elim
      | request q =>
        obtain ⟨t, h1, h2, _⟩ := this
        have := hcnt ho m' c t h1 h2
        omega
  · intro td i ch a htd
    have hmem : Entry.put i (.deliver ch a) ∈ log := List.mem_of_getElem? htd
    obtain ⟨hae, d, hch, htid⟩ := inv.dels i ch a hmem
    obtain ⟨htlt, hget⟩ := List.getElem?_eq_some_iff.mp htd
    have hsplit : putsOf log = putsOf (log.take td) ++ (i, Out.deliver ch a) :: putsOf (log.drop (td + 1)) := by
      conv => lhs; rw [← List.take_append_drop td log, List.drop_eq_getElem_cons htlt, hget, putsOf_append]
      rfl
    obtain ⟨hv, ⟨k, x, hx, hreads, hto⟩, _⟩ := tinv.delivered _ _ _ _ _ hsplit
    obtain ⟨hx10, hxt⟩ := reads_answer hreads hv
    have hxlog : Entry.put k (.tx x) ∈ log.take td := mem_putsOf.mp hx
    obtain ⟨m, c, t, hc, hk⟩ := inv.only k x (List.mem_of_mem_take hxlog)
    have ok := inv.ok c hc.mem
    rcases hk with ⟨_, hk⟩ | ⟨hk, hown, hwt, v, hv1, hv2⟩
    · exfalso
      rw [hk, bytes_esv] at hx10
      have h1 : c.msg.esvByte = a.esvByte := Option.some.inj hx10
      rw [← h1, answer_not_ask ok.service] at hae
      cases hae
    have hci : c.caller = i := (hto _ hown).symm
    have hat : a.tid = t := UInt16.toNat_inj.mp (hxt.symm.trans hwt)
    refine ⟨m, c, hc.1, hci, ?_, ?_⟩
    · have h2 := hc.2
      rw [← hat, htid, hci] at h2
      show ch = (n₀.hosts i).node.nextChan + _
      rw [hch]; omega
    intro hcj
    rw [hcj] at hk
    subst hk
    obtain ⟨pos, hpos⟩ := List.mem_iff_getElem?.mp hxlog
    have hposlt : pos < td := by
      have := (List.getElem?_eq_some_iff.mp hpos).1
      rw [List.length_take] at this; omega
    have hpos' : log[pos]? = some (.put k (.tx x)) := by
      rw [List.getElem?_take] at hpos
      rw [if_pos hposlt] at hpos
      exact hpos
    obtain ⟨l₁, t', req, l₂, k', r, u, o, g1, g2, g3, g4, g5, g5', g6, ⟨g', g7⟩, g8, g9⟩ := lin.ex.answers pos x hpos' ⟨v, hv1, hv2⟩
    -- the access is the call
    have hw := g1
    obtain ⟨w₁, w', rfl, hw1, hw2⟩ := List.map_eq_append_iff.mp hw
    obtain ⟨y, w₂, rfl, hy, hw3⟩ := List.map_eq_cons_iff.mp hw2
    obtain ⟨⟨tm, ac⟩, ef⟩ := y
    simp only [Prod.mk.injEq] at hy
    obtain ⟨rfl, rfl⟩ := hy
    have hm := hmat ((tm, .request req), ef) (by simp)
    cases ef with
    | set => exact hm.elim
    | call m' c' =>
      obtain ⟨t'', k1, k2, k3, k4⟩ := hm
      obtain ⟨_, _, _, _, hvr, _⟩ := lin.ex.heard tm req (by rw [g1]; simp)
      have hrt := (reads_answer g5 hvr).2
      have hcc : c'.caller = c.caller := by
        have := g4.to
        rw [← g5'] at this
        rw [this, k4.1.2.2.2.1] at hown
        exact Option.some.inj hown
      have htt : t'' = t := by
        have h1 := g4.tid (by
          rw [hrt, k4.1.2.1]
          intro h0
          exact k1.tid (UInt16.toNat_inj.mp h0))
        rw [hrt, hwt, k4.1.2.1] at h1
        exact (UInt16.toNat_inj.mp h1).symm
      subst htt
      obtain ⟨rfl, rfl⟩ := hc.unique k1 hcc
      have hreq := k4.same
      rw [hreq.2.1] at g8
      refine ⟨w₁.map (fun x => (x.1.1, x.2)), tm, w₂.map (fun x => (x.1.1, x.2)), o, by simp, by omega, g8, ?_⟩
      rw [← hw1, valuesAfter_snoc, hvals w₁ (by intro z hz; simp [hz]) o] at g9
      generalize valuesAfter (n₀.hosts k).node.handlers o ((w₁.map (fun x => (x.1.1, x.2))).map (fun x => x.2.access)) = va at g9
      have hacc : va.access (n₀.hosts k).node.handlers o (.request req) = va.judgedStep (n₀.hosts k).node.handlers o c'.msg :=
        same_judged hreq ok.service o _ va
      rw [hacc] at g9
      generalize (n₀.hosts k).node.handlers = hs at g9 ⊢
      have hiff := same_allowed hreq ok.service o hs
      obtain ⟨e1, _⟩ := reads_header hreads hv g6
      have hdone : Allowed o c'.msg ∧ Approved hs o c'.msg → successByte c'.msg.esvByte = some a.esvByte := by
        intro hx
        have := g9.done (hiff.mpr hx)
        rw [hreq.1, e1] at this; exact this
      have href : ¬ (Allowed o c'.msg ∧ Approved hs o c'.msg) → a.esvByte = errorByte c'.msg.esvByte := by
        intro hx
        have := g9.refused (fun h => hx (hiff.mp h))
        rw [hreq.1, e1] at this; exact this
      have hae' : successByte c'.msg.esvByte = some a.esvByte ∨ a.esvByte = errorByte c'.msg.esvByte := by
        rcases Classical.em (Allowed o c'.msg ∧ Approved hs o c'.msg) with h | h
        · exact Or.inl (hdone h)
        · exact Or.inr (href h)
      have hab := answer_bytes (svc := a.esvByte) ok.service (by rcases hae' with h | h; exact Or.inr h; exact Or.inl h)
      have hfits : Fits u := inv.handed k g' u g7
      have hfr := reads_frame hreads hv g6 (frameOf_valid _ hfits.1) g9.format (by rw [e1]; exact hab.2.2.1)
      have hnwr : isWriteReadByte a.esvByte = false := by
        rcases ok.service with h | h <;> rw [h] at hae' <;> rcases hae' with h | h
        · have : a.esvByte = 0x71 := by simpa [successByte] using h.symm
          rw [this]; decide
        · rw [h]; decide
        · have : a.esvByte = 0x72 := by simpa [successByte] using h.symm
          rw [this]; decide
        · rw [h]; decide
      have hprops := single_props hfr hnwr
      refine ⟨hdone, href, ?_, ?_⟩
      · intro h72
        have hm : c'.msg.esvByte = 0x62 := by
          rcases hae' with h | h
          · rw [h72] at h; exact (success_inv _ _ h).2.1 rfl
          · rw [h72] at h; exact absurd h.symm (errorByte_negative _).2.1
        refine ⟨hm, ?_⟩
        have := g9.read (by rw [hreq.1]; exact hm) (by rw [e1]; exact h72)
        rw [hreq.2.2, ← hprops] at this
        have hsame : va.judgedStep hs o c'.msg = va := by
          unfold Values.judgedStep
          split
          · have : writesOf c'.msg = [] := by unfold writesOf; rw [hm]; simp
            rw [this]; rfl
          · rfl
        rw [hsame] at this
        exact this
      · intro h71
        have hm : c'.msg.esvByte = 0x61 := by
          rcases hae' with h | h
          · rw [h71] at h; exact (success_inv _ _ h).1 rfl
          · rw [h71] at h; exact absurd h.symm (errorByte_negative _).1
        refine ⟨hm, ?_⟩
        have := g9.wrote (by rw [hreq.1]; exact hm) (by rw [e1]; exact h71)
        rw [hreq.2.2, ← hprops] at this
        exact this
  · intro o ho c hc
    obtain ⟨_, d, hd, _, hval⟩ := lin.impl o ho
    rw [← hvals w (fun _ h => h) o, ← hval c hc]
    simp only [Node.property, hd, Object.findProperty, valuesOf]
    cases d.properties c <;> rfl

/-- C86, nobody waits in vain: what has come out of the channels of a host is always one answer for each of its first calls,
in order, and once the network is at rest one for every call. -/
theorem C86_answered (b : Build) (ω₀ : HashOrder) (db : Database) (hdb : standardDb b ω₀ = .ok db)
    (own : IpAddr → Option Nat) (once : Prop) (n₀ n : Net S) (log : List Entry) (cs : List Call) (hready : Ready b own n₀)
    (hidle : ∀ k, (n₀.hosts k).node.post = none) (hone : once → CalledOnce n₀) (h : Concurrent b db own once n₀ log cs n)
    (hcalls : ∀ c ∈ cs, Running n₀ c.caller ∧ Running n₀ c.callee ∧ ∃ o ∈ (n₀.hosts c.callee).node.objects, o.code = c.msg.deoj)
    (htids : ∀ i, (n₀.hosts i).node.lastTid.toNat + callsBy i cs < 65536) (i : Nat) :
    ∃ k, k ≤ callsBy i cs ∧ callsBy i cs ≤ k + 1 ∧
      (answersAt i log).map (fun x => x.1) = List.range' (n₀.hosts i).node.nextChan k ∧
      (n.flying = [] → n.busy = [] → k = callsBy i cs) := by
  have inv := concurrent_inv hdb hready hidle hone h hcalls htids
  rcases inv.state i with ⟨_, h1⟩ | ⟨N, h1, _, h2, h3⟩
  · exact ⟨_, Nat.le_refl _, by omega, h1, fun _ _ => rfl⟩
  · refine ⟨N, by omega, by omega, h2, ?_⟩
    intro hf hb
    exfalso
    obtain ⟨_, _, _, _, _, _, h4⟩ := h3
    rw [hf, hb] at h4
    rcases h4 with ⟨_, h, _⟩ | ⟨_, h, _⟩ | ⟨_, h, _⟩ | ⟨_, h, _⟩ <;> simp at h

theorem callsBy_take_inj {cs : List Call} {n m i : Nat} {c d : Call} (hn : cs[n]? = some c) (hm : cs[m]? = some d)
    (hc : c.caller = i) (hd : d.caller = i) (h : callsBy i (cs.take n) = callsBy i (cs.take m)) : n = m := by
  rcases Nat.lt_trichotomy n m with hlt | rfl | hlt
  · have := callsBy_take_lt hn hlt
    rw [hc] at this; omega
  · rfl
  · have := callsBy_take_lt hm hlt
    rw [hd] at this; omega

theorem setsIn_get {j : Nat} {log : List Entry} {t : Nat} {oc : UInt32} {c : UInt8} {d : List UInt8}
    (h : (t, oc, c, d) ∈ setsIn j log) : log[t]? = some (.set j oc c d) := by
  obtain ⟨⟨e, k⟩, h1, h2⟩ := List.mem_filterMap.mp h
  cases e with
  | put => simp at h2
  | set i oc' c' d' =>
    simp only [] at h2
    split at h2
    · rename_i hij
      simp only [Option.some.injEq, Prod.mk.injEq] at h2
      obtain ⟨rfl, rfl, rfl, rfl⟩ := h2
      rw [← hij]
      exact List.mem_zipIdx_iff_getElem?.mp h1
    · cases h2

theorem numbers_unique {l : List (Nat × Effect)} (h : (l.filterMap (fun x => x.2.number)).Nodup) {x y : Nat × Effect}
    {n : Nat} (hx : x ∈ l) (hy : y ∈ l) (hxn : x.2.number = some n) (hyn : y.2.number = some n) : x = y := by
  induction l with
  | nil => cases hx
  | cons z l ih =>
    rw [List.filterMap_cons] at h
    have hmem : ∀ w ∈ l, w.2.number = some n → n ∈ l.filterMap (fun x => x.2.number) :=
      fun w hw hn => List.mem_filterMap.mpr ⟨w, hw, hn⟩
    rcases List.mem_cons.mp hx with rfl | hx' <;> rcases List.mem_cons.mp hy with rfl | hy'
    · rfl
    · rw [hxn] at h
      exact absurd (hmem _ hy' hyn) (List.nodup_cons.mp h).1
    · rw [hyn] at h
      exact absurd (hmem _ hx' hxn) (List.nodup_cons.mp h).1
    · refine ih ?_ hx' hy'
      cases hz : z.2.number with
      | none => rw [hz] at h; exact h
      | some k => rw [hz] at h; exact (List.nodup_cons.mp h).2

/-- C86, what a caller sees if the network repeats nothing: a read made after the confirmation of a write has arrived shows
what was written, unless somebody else writes the property in the meantime: every other call that writes it was answered
before the write was made or is made after the read was answered, and the application of the host sets it at no time in
between. -/
theorem C86_read_back (b : Build) (ω₀ : HashOrder) (db : Database) (hdb : standardDb b ω₀ = .ok db)
    (own : IpAddr → Option Nat) (n₀ n : Net S) (log : List Entry) (cs : List Call) (hready : Ready b own n₀)
    (hidle : ∀ k, (n₀.hosts k).node.post = none) (hone : CalledOnce n₀) (h : Concurrent b db own True n₀ log cs n)
    (hcalls : ∀ c ∈ cs, Running n₀ c.caller ∧ Running n₀ c.callee ∧ ∃ o ∈ (n₀.hosts c.callee).node.objects, o.code = c.msg.deoj)
    (htids : ∀ i, (n₀.hosts i).node.lastTid.toNat + callsBy i cs < 65536)
    (nw nr tw tr : Nat) (w r : Call) (aw ar : Message) (hw : cs[nw]? = some w) (hr : cs[nr]? = some r)
    (hj : r.callee = w.callee) (hdeoj : r.msg.deoj = w.msg.deoj)
    (haw : Arrives (fun i => (n₀.hosts i).node.nextChan) log cs nw tw aw) (hlater : tw < r.start)
    (har : Arrives (fun i => (n₀.hosts i).node.nextChan) log cs nr tr ar)
    (c : UInt8) (d : List UInt8) (hc : isMapCode c = false) (hconf : aw.esvByte = 0x71) (hshown : ar.esvByte = 0x72)
    (hwrites : ∃ p ∈ w.msg.properties, p.code = c) (hwd : ∀ p ∈ w.msg.properties, p.code = c → p.data = d)
    (hothers : ∀ m x, cs[m]? = some x → m ≠ nw → x.callee = w.callee → x.msg.deoj = w.msg.deoj →
      (∃ p ∈ writesOf x.msg, p.code = c) →
      (∃ t a, Arrives (fun i => (n₀.hosts i).node.nextChan) log cs m t a ∧ t ≤ w.start) ∨ tr ≤ x.start)
    (hsets : ∀ t d', log[t]? = some (.set w.callee w.msg.deoj c d') → t < w.start ∨ tr < t) :
    ∀ p ∈ ar.properties, p.code = c → p.data = d := by
  intro p hp hpc
  obtain ⟨l, ef, _⟩ := C86_linearizable b ω₀ db hdb own True n₀ n log cs hready hidle (fun _ => hone) h hcalls htids w.callee
  generalize hs : (n₀.hosts w.callee).node.handlers = hds at ef
  generalize ho : (n₀.hosts w.callee).node.objects = objs at ef
  -- an answer that arrives stands for an effect
  have effect : ∀ m x t a, cs[m]? = some x → x.callee = w.callee →
      Arrives (fun i => (n₀.hosts i).node.nextChan) log cs m t a → ∃ l₁ tm l₂ o, l = l₁ ++ (tm, .call m x) :: l₂ ∧ tm ≤ t ∧
        findObject objs x.msg.deoj = some o ∧ Answer hds o (valuesAfter hds o (l₁.map (fun x => x.2.access))) x.msg a := by
    rintro m x t a hx hxj ⟨x', hx', hlog⟩
    rw [hx] at hx'
    obtain rfl := Option.some.inj hx'
    obtain ⟨m', x', h1, h2, h3, h4⟩ := ef.answers _ _ _ _ hlog
    have := callsBy_take_inj hx h1 rfl h2 (by simp only [] at h3; omega)
    subst this
    rw [hx] at h1
    obtain rfl := Option.some.inj h1
    exact h4 hxj
  obtain ⟨l₁, Tw, l₂, o, hl, hTw, hfo, hansw⟩ := effect nw w tw aw hw rfl haw
  obtain ⟨r₁, Tr, r₂, o', hl', hTr, hfo', hansr⟩ := effect nr r tr ar hr hj har
  rw [hdeoj, hfo] at hfo'
  obtain rfl := Option.some.inj hfo'
  obtain ⟨_, _, hsw, _⟩ := ef.calls Tw nw w (by rw [hl]; simp)
  obtain ⟨_, _, hsr, _⟩ := ef.calls Tr nr r (by rw [hl']; simp)
  -- the write stands before the read
  have hord := ef.ordered
  have hlt : Tw < Tr := by omega
  obtain ⟨mid, rfl⟩ : ∃ mid, r₁ = l₁ ++ (Tw, .call nw w) :: mid := by
    rw [hl] at hl'
    rcases List.append_eq_append_iff.mp hl' with ⟨as, h1, h2⟩ | ⟨bs, h1, h2⟩
    · cases as with
      | nil =>
        simp only [List.nil_append, List.cons.injEq, Prod.mk.injEq] at h2
        omega
      | cons y ys =>
        simp only [List.cons_append, List.cons.injEq] at h2
        exact ⟨ys, by rw [h1, ← h2.1]⟩
    · exfalso
      cases bs with
      | nil =>
        simp only [List.nil_append, List.cons.injEq, Prod.mk.injEq] at h2
        omega
      | cons y ys =>
        simp only [List.cons_append, List.cons.injEq] at h2
        rw [hl, h1, ← h2.1] at hord
        have := (List.pairwise_append.mp hord).2.2 (Tr, .call nr r) (by simp) (Tw, .call nw w) (by simp)
        simp only [] at this
        omega
  have hmid : ∀ x ∈ mid, Tw ≤ x.1 ∧ x.1 ≤ Tr := by
    intro x hx
    rw [hl', List.append_assoc, List.cons_append] at hord
    have h1 := (List.pairwise_append.mp hord).2.1
    refine ⟨(List.pairwise_cons.mp h1).1 x (by simp [hx]), ?_⟩
    have h2 := (List.pairwise_cons.mp h1).2
    exact (List.pairwise_append.mp h2).2.2 x hx _ List.mem_cons_self
  have hoc : o.code = w.msg.deoj := by
    obtain ⟨_, _, _, _, h3⟩ := findObject_split hfo
    exact h3
  obtain ⟨hwr, _⟩ := hansw.wrote hconf
  have hdone : Allowed o w.msg ∧ Approved hds o w.msg := by
    rcases Classical.em (Allowed o w.msg ∧ Approved hds o w.msg) with h | h
    · exact h
    · have := hansw.refused h
      rw [hconf, hwr] at this
      exact absurd this (by decide)
  obtain ⟨_, hsh⟩ := hansr.read hshown
  have hv := hsh.2 p hp (by rw [hpc]; exact hc)
  rw [hpc, List.map_append, List.map_cons] at hv
  refine written_kept hds o (l₁.map (fun x => x.2.access)) (mid.map (fun x => x.2.access)) w.msg c d p.data hwr hoc hdone hwrites
    hwd ?_ (by rw [List.append_assoc]; exact hv)
  have hnd := ef.once trivial
  intro a ha
  obtain ⟨⟨t, e⟩, hx, rfl⟩ := List.mem_map.mp ha
  have hxl : (t, e) ∈ l := by rw [hl']; simp [hx]
  have hb := hmid _ hx
  simp only [] at hb
  cases e with
  | call m x =>
    simp only [Effect.access]
    intro hd q hq hqc
    obtain ⟨hcm, hcj, hst, _⟩ := ef.calls t m x hxl
    have hne : m ≠ nw := by
      rintro rfl
      have hsub := hnd
      rw [hl', List.append_assoc, List.cons_append, List.filterMap_append, List.filterMap_cons] at hsub
      simp only [Effect.number] at hsub
      have := (List.nodup_append.mp hsub).2.1
      exact (List.nodup_cons.mp this).1 (List.mem_filterMap.mpr ⟨(t, .call m x), by simp [hx], rfl⟩)
    rcases hothers m x hcm hne hcj hd ⟨q, hq, hqc⟩ with ⟨t', a', h1, h2⟩ | h1
    · obtain ⟨k₁, tm, k₂, _, h3, h4, _⟩ := effect m x t' a' hcm hcj h1
      have := numbers_unique hnd hxl (by rw [h3]; simp : (tm, Effect.call m x) ∈ l) rfl rfl
      simp only [Prod.mk.injEq, and_true] at this
      omega
    · omega
  | set oc c' d' =>
    simp only [Effect.access]
    rintro ⟨rfl, rfl⟩
    have hin : (t, w.msg.deoj, c', d') ∈ setsIn w.callee log := by
      rw [← ef.sets]
      exact List.mem_filterMap.mpr ⟨(t, .set w.msg.deoj c' d'), List.mem_map.mpr ⟨_, hxl, rfl⟩, rfl⟩
    rcases hsets t d' (setsIn_get hin) with h1 | h1 <;> omega

/-! ## An execution -/

/-- Three hosts. -/
def trioOwn (a : IpAddr) : Option Nat :=
  if a = .v4 0xC0A80001 then some 0 else if a = .v4 0xC0A80002 then some 1 else if a = .v4 0xC0A80003 then some 2 else none

def trioIp (k : Nat) : IpAddr := if k = 0 then .v4 0xC0A80001 else if k = 1 then .v4 0xC0A80002 else .v4 0xC0A80003

/-- The third host is a caller like the first. -/
def exThird : Node Nat := { exCaller with transport := ⟨[⟨.v4 0xC0A80003, [.node], .running⟩], []⟩ }

def trio (a b c : Node Nat) (f : List Packet) : Net Nat :=
  ⟨fun i => if i = 0 then .ofNode a else if i = 1 then .ofNode b else if i = 2 then .ofNode c else
    ⟨⟨Manager.new, [], 0, none, 0, [], [], 0⟩, [], []⟩, f, [], fun _ _ => false, fun _ => false⟩

/-- The datagrams put out, each delivered once. -/
def trioMail (outs : List Out) : List Packet :=
  (txs outs).filterMap (fun t => (trioOwn t.to.ip).map (fun j => ⟨⟨t.iface, 3610⟩, j, 0, t.bytes⟩))

theorem trio_mail {outs : List Out} {p : Packet} (h : p ∈ trioMail outs) :
    ∃ t, Out.tx t ∈ outs ∧ p.bytes = t.bytes ∧ p.src.ip = t.iface ∧ ∀ j, trioOwn t.to.ip = some j → p.host = j := by
  obtain ⟨t, h1, h2⟩ := List.mem_filterMap.mp h
  rw [Option.map_eq_some_iff] at h2
  obtain ⟨j, h3, rfl⟩ := h2
  exact ⟨t, mem_txs.mpr h1, rfl, rfl, fun j' h4 => by rw [h3] at h4; exact Option.some.inj h4⟩

theorem trio_count (f : List UInt8 → IpAddr → Bool) (outs : List Out) :
    (trioMail outs).countP (fun p => f p.bytes p.src.ip) ≤ (txs outs).countP (fun t => f t.bytes t.iface) := by
  unfold trioMail
  induction txs outs with
  | nil => simp
  | cons t l ih =>
    rw [List.filterMap_cons]
    cases trioOwn t.to.ip with
    | none => simp only [Option.map_none, List.countP_cons]; omega
    | some j => simp only [Option.map_some, List.countP_cons]; omega

theorem trio_delivered {n : Net Nat} (hl : ∀ j ip, trioOwn ip = some j → Listening n j 0) (outs : List Out) :
    Delivered trioOwn n outs (trioMail outs) := by
  refine ⟨?_, ?_⟩
  · intro p hp
    obtain ⟨t, h1, h2, h3, _⟩ := trio_mail hp
    exact ⟨t, h1, h2, h3⟩
  · intro t ht j hj _
    refine ⟨⟨⟨t.iface, 3610⟩, j, 0, t.bytes⟩, ?_, rfl, rfl, rfl, hl j _ hj⟩
    exact List.mem_filterMap.mpr ⟨t, mem_txs.mp ht, by rw [hj]; rfl⟩

/-- All hosts are running, each with one receiver thread. -/
def TrioUp (n : Net Nat) : Prop :=
  ∀ j, j < 3 → (n.hosts j).threads = [⟨trioIp j, [.node], .running⟩] ∧ n.poisoned j .node = false

theorem TrioUp.listening {n : Net Nat} (h : TrioUp n) (j : Nat) (ip : IpAddr) (hj : trioOwn ip = some j) : Listening n j 0 := by
  have : j < 3 := by
    unfold trioOwn at hj
    split at hj
    · cases hj; omega
    · split at hj
      · cases hj; omega
      · split at hj
        · cases hj; omega
        · cases hj
  exact ⟨_, by rw [(h j this).1]; rfl, rfl⟩

variable {db : Database} {n₀ x : Net Nat} {log : List Entry} {cs : List Call}

theorem trio_post (h : Concurrent .dev db trioOwn True n₀ log cs x) (hup : TrioUp x) {i j : Nat} (ip : IpAddr) (m : Message)
    {A : Node Nat} {oa : List Out} (hw : (answersAt i log).length = callsBy i cs) (hf : m.isFormat1 = true)
    (he : m.esvByte = 0x61 ∨ m.esvByte = 0x62) (ht : m.tid = 0) (hj : trioOwn ip = some j)
    (hs : (x.hosts i).node.step .dev (.post ⟨ip, 3610⟩ m allOk) = .ok (A, oa)) (hfit : oa.all fitsOut = true) :
    Concurrent .dev db trioOwn True n₀ (log ++ oa.map (.put i)) (cs ++ [⟨i, j, m, log.length⟩])
      { x.setHost i { x.hosts i with node := A } with flying := x.flying ++ trioMail oa } := by
  refine Concurrent.post h hw hf he ht (.node ⟨ip, 3610⟩ m allOk (fun _ => rfl)) hj
    (.mk { x.hosts i with node := A } oa (trioMail oa) trivial ?_ ?_) ⟨trioMail oa, rfl, trio_delivered hup.listening oa⟩ ?_ ?_ ?_
  · simp [Host.step, hs]
  · exact (trio_delivered hup.listening oa).1
  · intro p hp
    rcases List.mem_append.mp hp with hp | hp
    · exact Or.inl hp
    · exact Or.inr (trio_mail hp)
  · intro g u hu; exact fits_all hfit hu
  · intro _ f
    simp only [List.countP_append]
    have := trio_count f oa
    omega

theorem trio_round (h : Concurrent .dev db trioOwn True n₀ log cs x) (hup : TrioUp x) (hidle : x.busy = []) {l₁ l₂ : List Packet}
    {p : Packet} {m : Message} {en : LoopEnd} {n' : Node Nat} {outs : List Out} (hf : x.flying = l₁ ++ p :: l₂)
    (hp : p.host < 3) (hp0 : p.srv = 0) (hm : recvLoop [.datagram p.bytes p.src] = ([m], en))
    (hobs : (x.hosts p.host).node.observe .dev .ascending allOk m = .ok (n', outs)) (hfit : outs.all fitsOut = true) :
    Concurrent .dev db trioOwn True n₀ (log ++ outs.map (.put p.host)) cs
      { x.setHost p.host { x.hosts p.host with node := n' } with flying := l₁ ++ l₂ ++ trioMail outs } := by
  have h1 := Reliable.receive (b := .dev) (db := db) (own := trioOwn) (n := x) l₁ l₂ p ⟨trioIp p.host, [.node], .running⟩ hf
    (by rw [(hup _ hp).1, hp0]; rfl) rfl (fun q hq => by rw [hidle] at hq; simp at hq)
  have hx : x.received p ⟨trioIp p.host, [.node], .running⟩ (l₁ ++ l₂) =
      { x with flying := l₁ ++ l₂, busy := [⟨p.host, p.srv, m, [.node]⟩] } := by
    unfold Net.received; rw [hm]; simp only [hidle, List.nil_append]
  rw [hx] at h1
  have h2 := Reliable.call (b := .dev) (db := db) (own := trioOwn)
    (n := ({ x with flying := l₁ ++ l₂, busy := [⟨p.host, p.srv, m, [.node]⟩] } : Net Nat)) [] []
    ⟨p.host, p.srv, m, [.node]⟩ .node [] ⟨true, true, .ascending, fun _ => List.replicate 16 0, allOk⟩
    { x.hosts p.host with node := n' } outs (trioMail outs) rfl rfl (hup _ hp).2 (fun _ => rfl) ⟨rfl, rfl⟩ (fun _ => rfl) (by
      simp only [Host.invoke, Node.observeTry, Bool.not_true, Bool.false_eq_true, if_false, hobs, Res.bind_ok, Res.pure_eq])
    (trio_delivered (fun j ip hj => (listening_congr rfl).mpr (hup.listening j ip hj)) outs)
  have g1 := Concurrent.step h h1
    (by intro p' hp'
        refine Or.inl ?_
        rw [hf]
        rcases List.mem_append.mp hp' with hp' | hp'
        · exact List.mem_append_left _ hp'
        · exact List.mem_append_right _ (List.mem_cons_of_mem _ hp'))
    (by intro g u hu; cases hu)
    (by intro _ f
        rw [hf]
        simp only [List.countP_append, List.countP_cons]
        omega)
  have g2 := Concurrent.step g1 h2
    (by intro p' hp'
        rcases List.mem_append.mp hp' with hp' | hp'
        · exact Or.inl hp'
        · exact Or.inr (trio_mail hp'))
    (by intro g u hu; exact fits_all hfit hu)
    (by intro _ f
        have := trio_count f outs
        simp only [List.countP_append]
        omega)
  have h3 := Reliable.done (b := .dev) (db := db) (own := trioOwn)
    (n := ({ x.setHost p.host { x.hosts p.host with node := n' } with
      flying := l₁ ++ l₂ ++ trioMail outs, busy := [⟨p.host, p.srv, m, []⟩] } : Net Nat)) [] [] ⟨p.host, p.srv, m, []⟩ rfl rfl
  have g3 := Concurrent.step g2 h3 (by intro p' hp'; exact Or.inl hp') (by intro g u hu; cases hu) (by intro _ f; simp [txs])
  simpa [Net.setHost, hidle] using g3

theorem trio_set0 (a b c a' : Node Nat) (f g : List Packet) :
    ({ (trio a b c f).setHost 0 { (trio a b c f).hosts 0 with node := a' } with flying := g } : Net Nat) = trio a' b c g := by
  unfold trio Net.setHost
  simp only [Net.mk.injEq, and_true]
  funext k
  by_cases h : k = 0
  · subst h; simp [Host.ofNode]
  · simp [h]

theorem trio_set1 (a b c b' : Node Nat) (f g : List Packet) :
    ({ (trio a b c f).setHost 1 { (trio a b c f).hosts 1 with node := b' } with flying := g } : Net Nat) = trio a b' c g := by
  unfold trio Net.setHost
  simp only [Net.mk.injEq, and_true]
  funext k
  by_cases h : k = 1
  · subst h; simp [Host.ofNode]
  · simp [h]

theorem trio_set2 (a b c c' : Node Nat) (f g : List Packet) :
    ({ (trio a b c f).setHost 2 { (trio a b c f).hosts 2 with node := c' } with flying := g } : Net Nat) = trio a b c' g := by
  unfold trio Net.setHost
  simp only [Net.mk.injEq, and_true]
  funext k
  by_cases h : k = 2
  · subst h; simp [Host.ofNode]
  · simp [h]

theorem trio_up {a b c : Node Nat} {f : List Packet} (ha : a.transport = exCaller.transport)
    (hb : b.transport = ⟨[⟨.v4 0xC0A80002, [.node], .running⟩], []⟩) (hc : c.transport = exThird.transport) :
    TrioUp (trio a b c f) := by
  intro j hj
  refine ⟨?_, rfl⟩
  have : j = 0 ∨ j = 1 ∨ j = 2 := by omega
  rcases this with rfl | rfl | rfl
  · simp [trio, Host.ofNode, Host.threads, ha, exCaller, trioIp]
  · simp [trio, Host.ofNode, Host.threads, hb, trioIp]
  · simp [trio, Host.ofNode, Host.threads, hc, exThird, trioIp]

theorem post_transport {n n' : Node Nat} {to : SocketAddr} {m : Message} {outs : List Out}
    (h : n.step .dev (.post to m allOk) = .ok (n', outs)) : n'.transport = n.transport := by
  simp only [Node.step, Node.postMessage, Res.ok.injEq, Prod.mk.injEq] at h
  rw [← h.1]; simp [Node.updateTid_transport]

theorem trio_app {a b c : Node Nat} {f : List Packet} (h : Concurrent .dev db trioOwn True n₀ log cs (trio a b c f)) :
    Concurrent .dev db trioOwn True n₀ (log ++ [.set 1 0x029001 0x80 [0x31]]) cs
      (trio a (b.setProperty 0x029001 0x80 [0x31]).2 c f) := by
  have s3 := Concurrent.set (db := db) 1 0x029001 0x80 [0x31] h (outs := [])
    (.mk { (trio a b c f).hosts 1 with node := (b.setProperty 0x029001 0x80 [0x31]).2 } [] [] trivial
      (by simp [Host.step, Node.step, trio, Host.ofNode]) (by intro p hp; cases hp))
  rw [trio_set1] at s3
  simpa [trio] using s3

/-- What host 1 answers to the write of host 0 and to the read of host 2. -/
def trioWritten : List UInt8 := [0x10, 0x81, 0, 1, 0x02, 0x90, 0x01, 0, 0, 0, 0x71, 1, 0xB0, 0]
def trioTold : List UInt8 := [0x10, 0x81, 0, 1, 0x02, 0x90, 0x01, 0, 0, 0, 0x72, 1, 0xB0, 1, 0x30]

/-- Non-vacuity of the theorems above: host 0 writes and host 2 reads property 0xB0 of an object of host 1, at the same time
and with the same TID. The read overtakes the write, and the application of host 1 sets a value meanwhile. Both calls are
answered, the read with the old value. When host 2 reads again it gets the new value. -/
example : ∃ (db : Database) (n₀ n : Net Nat) (log : List Entry) (cs : List Call) (aw ar ar' : Message),
    standardDb .dev .ascending = .ok db ∧ Ready .dev trioOwn n₀ ∧ (∀ k, (n₀.hosts k).node.post = none) ∧ CalledOnce n₀ ∧
    Concurrent .dev db trioOwn True n₀ log cs n ∧ cs.map (fun c => (c.caller, c.callee)) = [(0, 1), (2, 1), (2, 1)] ∧
    (∀ c ∈ cs, Running n₀ c.caller ∧ Running n₀ c.callee ∧ ∃ o ∈ (n₀.hosts c.callee).node.objects, o.code = c.msg.deoj) ∧
    (∀ i, (n₀.hosts i).node.lastTid.toNat + callsBy i cs < 65536) ∧ n.flying = [] ∧ n.busy = [] ∧
    answersAt 0 log = [(0, aw)] ∧ answersAt 2 log = [(0, ar), (1, ar')] ∧ aw.esvByte = 0x71 ∧ ar.properties = [⟨0xB0, [0x30]⟩] ∧
    Entry.set 1 0x029001 0x80 [0x31] ∈ log ∧ ar'.esvByte = 0x72 ∧ ar'.properties = [⟨0xB0, [0x42]⟩] ∧
    ∃ w r₁ r tw tr, cs = [w, r₁, r] ∧ Arrives (fun i => (n₀.hosts i).node.nextChan) log cs 0 tw aw ∧ tw < r.start ∧
      Arrives (fun i => (n₀.hosts i).node.nextChan) log cs 2 tr ar' ∧
      w.msg = exWrite ∧ r₁.msg = exAsk ∧ r.msg = exAsk ∧ writesOf exAsk = [] := by
  obtain ⟨db, hdb, _⟩ := C21_builds .dev .ascending
  obtain ⟨o, A, oa, C, oc, rq0, rq2, B1, ob1, B2, ob2, r0, r2, A', C', aw, ar, ho, hk, hk2, ha, hoa, hc, hoc, hq0, hq2, hb1, hob1, hb2, hob2,
      hr0, hr2, hA', hC', hfit, hdel, haw, har, hcode, C2, oc2, rq3, B3, ob3, r3, C3, ar', hc2, hoc2, hq3, hb3, hob3, hr3, hC3, hfit2, hdel2,
      hare, harp⟩ :
      ∃ o A oa C oc rq0 rq2 B1 ob1 B2 ob2 r0 r2 A' C' aw ar, exLight = .ok o ∧
      (∀ k : UInt8, ((o.properties k).all (fun p => p.code == k)) = true) ∧
      (∀ k : UInt8, ((o.properties k).all (fun p => decide (0x80 ≤ p.code))) = true) ∧
      exCaller.step .dev (.post ⟨.v4 0xC0A80002, 3610⟩ exWrite allOk) = .ok (A, oa) ∧
      txs oa = [(⟨.v4 0xC0A80001, ⟨.v4 0xC0A80002, 3610⟩, (exWrite.setTid 1).bytes⟩ : Tx)] ∧
      exThird.step .dev (.post ⟨.v4 0xC0A80002, 3610⟩ exAsk allOk) = .ok (C, oc) ∧
      txs oc = [(⟨.v4 0xC0A80003, ⟨.v4 0xC0A80002, 3610⟩, (exAsk.setTid 1).bytes⟩ : Tx)] ∧
      recvLoop [.datagram (exWrite.setTid 1).bytes ⟨.v4 0xC0A80001, 3610⟩] = ([rq0], .running) ∧
      recvLoop [.datagram (exAsk.setTid 1).bytes ⟨.v4 0xC0A80003, 3610⟩] = ([rq2], .running) ∧
      ((exCounting o).setProperty 0x029001 0x80 [0x31]).2.observe .dev .ascending allOk rq2 = .ok (B1, ob1) ∧
      txs ob1 = [(⟨.v4 0xC0A80002, ⟨.v4 0xC0A80003, 3610⟩, trioTold⟩ : Tx)] ∧
      B1.observe .dev .ascending allOk rq0 = .ok (B2, ob2) ∧
      txs ob2 = [(⟨.v4 0xC0A80002, ⟨.v4 0xC0A80001, 3610⟩, trioWritten⟩ : Tx)] ∧
      recvLoop [.datagram trioWritten ⟨.v4 0xC0A80002, 3610⟩] = ([r0], .running) ∧
      recvLoop [.datagram trioTold ⟨.v4 0xC0A80002, 3610⟩] = ([r2], .running) ∧
      A.observe .dev .ascending allOk r0 = .ok (A', [.deliver 0 aw]) ∧
      C.observe .dev .ascending allOk r2 = .ok (C', [.deliver 0 ar]) ∧
      (oa ++ oc ++ ob1 ++ ob2).all fitsOut = true ∧ (deliveries (oa ++ oc ++ ob1 ++ ob2)).length = 0 ∧ aw.esvByte = 0x71 ∧ ar.properties = [⟨0xB0, [0x30]⟩] ∧ o.code = 0x029001 ∧
      ∃ C2 oc2 rq3 B3 ob3 r3 C3 ar', C'.step .dev (.post ⟨.v4 0xC0A80002, 3610⟩ exAsk allOk) = .ok (C2, oc2) ∧
      txs oc2 = [(⟨.v4 0xC0A80003, ⟨.v4 0xC0A80002, 3610⟩, (exAsk.setTid 2).bytes⟩ : Tx)] ∧
      recvLoop [.datagram (exAsk.setTid 2).bytes ⟨.v4 0xC0A80003, 3610⟩] = ([rq3], .running) ∧
      B2.observe .dev .ascending allOk rq3 = .ok (B3, ob3) ∧
      txs ob3 = [(⟨.v4 0xC0A80002, ⟨.v4 0xC0A80003, 3610⟩, exTold⟩ : Tx)] ∧
      recvLoop [.datagram exTold ⟨.v4 0xC0A80002, 3610⟩] = ([r3], .running) ∧
      C2.observe .dev .ascending allOk r3 = .ok (C3, [.deliver 1 ar']) ∧
      (oc2 ++ ob3).all fitsOut = true ∧ (deliveries (oc2 ++ ob3)).length = 0 ∧ ar'.esvByte = 0x72 ∧
      ar'.properties = [⟨0xB0, [0x42]⟩] := by
    refine ⟨_, _, _, _, _, _, _, _, _, _, _, _, _, _, _, _, _, rfl, by decide +kernel, by decide +kernel, rfl, by decide +kernel, rfl,
      by decide +kernel, rfl, rfl, rfl, by decide +kernel, rfl, by decide +kernel, rfl, rfl, rfl, rfl, by decide +kernel, by decide +kernel,
      by decide +kernel, by decide +kernel, by decide +kernel,
      _, _, _, _, _, _, _, _, rfl, by decide +kernel, rfl, rfl, by decide +kernel, rfl, rfl, by decide +kernel, by decide +kernel,
      by decide +kernel, by decide +kernel⟩
  simp only [List.all_append, Bool.and_eq_true] at hfit hfit2
  obtain ⟨⟨⟨f1, f2⟩, f3⟩, f4⟩ := hfit
  have tA : A.transport = exCaller.transport := post_transport ha
  have tC : C.transport = exThird.transport := post_transport hc
  have tB : ((exCounting o).setProperty 0x029001 0x80 [0x31]).2.transport = ⟨[⟨.v4 0xC0A80002, [.node], .running⟩], []⟩ := by
    rw [setProperty_frame]; rfl
  have tB1 := (observe_frame hb1).2.1.trans tB
  have tB2 := (observe_frame hb2).2.1.trans tB1
  have tA' := (observe_frame hA').2.1.trans tA
  have tC' := (observe_frame hC').2.1.trans tC
  have tC2 : C2.transport = exThird.transport := (post_transport hc2).trans tC'
  have tB3 := (observe_frame hb3).2.1.trans tB2
  have m5 : trioMail oc2 = [⟨⟨.v4 0xC0A80003, 3610⟩, 1, 0, (exAsk.setTid 2).bytes⟩] := by simp [trioMail, hoc2, trioOwn]
  have m6 : trioMail ob3 = [⟨⟨.v4 0xC0A80002, 3610⟩, 2, 0, exTold⟩] := by simp [trioMail, hob3, trioOwn]
  have m1 : trioMail oa = [⟨⟨.v4 0xC0A80001, 3610⟩, 1, 0, (exWrite.setTid 1).bytes⟩] := by simp [trioMail, hoa, trioOwn]
  have m2 : trioMail oc = [⟨⟨.v4 0xC0A80003, 3610⟩, 1, 0, (exAsk.setTid 1).bytes⟩] := by simp [trioMail, hoc, trioOwn]
  have m3 : trioMail ob1 = [⟨⟨.v4 0xC0A80002, 3610⟩, 2, 0, trioTold⟩] := by simp [trioMail, hob1, trioOwn]
  have m4 : trioMail ob2 = [⟨⟨.v4 0xC0A80002, 3610⟩, 0, 0, trioWritten⟩] := by simp [trioMail, hob2, trioOwn]
  simp only [deliveries_append, List.length_append, Nat.add_eq_zero_iff, List.length_eq_zero_iff] at hdel hdel2
  obtain ⟨⟨⟨d1, d2⟩, d3⟩, d4⟩ := hdel
  have none : ∀ k j (l : List Out), deliveries l = [] → answersAt k (l.map (.put j)) = [] := by
    intro k j l hl
    by_cases hk : j = k
    · subst hk; rw [answersAt_same, hl]
    · exact answersAt_other hk _
  have s0 : Concurrent .dev db trioOwn True (trio exCaller (exCounting o) exThird []) [] [] _ := .start
  have s1 := trio_post s0 (trio_up rfl rfl rfl) (i := 0) (j := 1) (.v4 0xC0A80002) exWrite rfl (by decide +kernel)
    (by decide +kernel) (by decide +kernel) (by decide +kernel) ha f1
  rw [trio_set0, m1] at s1
  have s2 := trio_post s1 (trio_up tA rfl rfl) (i := 2) (j := 1) (.v4 0xC0A80002) exAsk (by
      rw [List.nil_append, none _ _ _ d1]; rfl) (by decide +kernel)
    (by decide +kernel) (by decide +kernel) (by decide +kernel) hc f2
  rw [trio_set2, m2] at s2
  have s3 := trio_app s2
  have s4 := trio_round s3 (trio_up tA tB tC) rfl (l₁ := [_]) (l₂ := []) rfl (by simp) rfl hq2 hb1 f3
  rw [trio_set1, m3] at s4
  have s5 := trio_round s4 (trio_up tA tB1 tC) rfl (l₁ := []) (l₂ := [_]) rfl (by simp) rfl hq0 hb2 f4
  rw [trio_set1, m4] at s5
  have s6 := trio_round s5 (trio_up tA tB2 tC) rfl (l₁ := [_]) (l₂ := []) rfl (by simp) rfl hr0 hA' rfl
  rw [trio_set0] at s6
  have s7 := trio_round s6 (trio_up tA' tB2 tC) rfl (l₁ := []) (l₂ := []) rfl (by simp) rfl hr2 hC' rfl
  rw [trio_set2] at s7
  have s8 := trio_post s7 (trio_up tA' tB2 tC') (i := 2) (j := 1) (.v4 0xC0A80002) exAsk (by
      simp only [List.nil_append, answersAt_append, none _ _ _ d1, none _ _ _ d2, none _ _ _ d3, none _ _ _ d4]
      rfl) (by decide +kernel) (by decide +kernel) (by decide +kernel) (by decide +kernel) hc2 hfit2.1
  rw [trio_set2, m5] at s8
  have s9 := trio_round s8 (trio_up tA' tB2 tC2) rfl (l₁ := []) (l₂ := []) rfl (by simp) rfl hq3 hb3 hfit2.2
  rw [trio_set1, m6] at s9
  have s10 := trio_round s9 (trio_up tA' tB3 tC2) rfl (l₁ := []) (l₂ := []) rfl (by simp) rfl hr3 hC3 rfl
  rw [trio_set2] at s10
  refine ⟨db, _, _, _, _, aw, ar, ar', hdb, ⟨⟨rfl, rfl, ?_⟩, ?_, ?_⟩, ?_, ?_, s10, ?_, ?_, ?_, ?_, ?_, ?_, ?_, haw, har, ?_, hare, harp, ?_⟩
  · intro k s hs
    unfold trio at hs
    simp only [] at hs
    repeat' split at hs
    · rename_i h; subst h
      have : s = ⟨.v4 0xC0A80001, [.node], .running⟩ := by simpa [Host.threads, Host.ofNode, exCaller] using hs
      rw [this]; rfl
    · rename_i h; subst h
      have : s = ⟨.v4 0xC0A80002, [.node], .running⟩ := by simpa [Host.threads, Host.ofNode, exCounting] using hs
      rw [this]; rfl
    · rename_i h; subst h
      have : s = ⟨.v4 0xC0A80003, [.node], .running⟩ := by simpa [Host.threads, Host.ofNode, exThird] using hs
      rw [this]; rfl
    · simp [Host.threads, Manager.new] at hs
  · intro k x hx
    have hx : x = o := by
      unfold trio at hx
      simp only [] at hx
      repeat' split at hx
      · simp [Host.ofNode, exCaller] at hx
      · simpa [Host.ofNode, exCounting] using hx
      · simp [Host.ofNode, exThird, exCaller] at hx
      · simp at hx
    rw [hx]
    refine ⟨?_, Or.inr ?_⟩
    · intro k p hp
      have := hk k
      rw [hp] at this
      simpa using this
    · intro k p hp
      have := hk2 k
      rw [hp] at this
      simpa using this
  · intro k x hx
    have hx : x = countCalls := by
      unfold trio at hx
      simp only [] at hx
      repeat' split at hx
      · simp [Host.ofNode, exCaller] at hx
      · simpa [Host.ofNode, exCounting] using hx
      · simp [Host.ofNode, exThird, exCaller] at hx
      · simp at hx
    rw [hx]
    exact ⟨fun _ _ _ _ => rfl, fun _ _ _ _ _ _ _ _ => rfl⟩
  · intro k
    unfold trio
    simp only []
    repeat' split
    all_goals rfl
  · intro k s hs
    unfold trio at hs
    simp only [] at hs
    repeat' split at hs
    · have : s = ⟨.v4 0xC0A80001, [.node], .running⟩ := by simpa [Host.threads, Host.ofNode, exCaller] using hs
      rw [this]; decide
    · have : s = ⟨.v4 0xC0A80002, [.node], .running⟩ := by simpa [Host.threads, Host.ofNode, exCounting] using hs
      rw [this]; decide
    · have : s = ⟨.v4 0xC0A80003, [.node], .running⟩ := by simpa [Host.threads, Host.ofNode, exThird] using hs
      rw [this]; decide
    · simp [Host.threads, Manager.new] at hs
  · rfl
  · have run : ∀ j, j < 3 → Running (trio exCaller (exCounting o) exThird []) j := by
      intro j hj
      have hup := trio_up (f := []) (a := exCaller) (b := exCounting o) (c := exThird) rfl rfl rfl j hj |>.1
      refine ⟨⟨0, _, by rw [hup]; rfl, rfl⟩, ?_, ?_, fun _ => rfl⟩
      · have : j = 0 ∨ j = 1 ∨ j = 2 := by omega
        rcases this with rfl | rfl | rfl <;> simp [trio, Host.ofNode, exCaller, exCounting, exThird]
      · intro s hs
        rw [hup] at hs
        simp only [List.mem_cons, List.not_mem_nil, or_false] at hs
        rw [hs]; rfl
    intro c hc
    simp only [List.nil_append, List.mem_append, List.mem_cons, List.not_mem_nil, or_false] at hc
    rcases hc with (rfl | rfl) | rfl
    · refine ⟨run 0 (by omega), run 1 (by omega), o, by simp [trio, Host.ofNode, exCounting], ?_⟩
      rw [hcode]; decide +kernel
    · refine ⟨run 2 (by omega), run 1 (by omega), o, by simp [trio, Host.ofNode, exCounting], ?_⟩
      rw [hcode]; exact (by decide +kernel : (0x029001 : UInt32) = exAsk.deoj)
    · refine ⟨run 2 (by omega), run 1 (by omega), o, by simp [trio, Host.ofNode, exCounting], ?_⟩
      rw [hcode]; exact (by decide +kernel : (0x029001 : UInt32) = exAsk.deoj)
  · intro k
    have h1 : ((trio exCaller (exCounting o) exThird []).hosts k).node.lastTid = 0 := by
      unfold trio
      simp only []
      repeat' split
      all_goals rfl
    rw [h1]
    have : ∀ l : List Call, callsBy k l ≤ l.length := fun l => List.countP_le_length
    have h0 : (0 : UInt16).toNat = 0 := rfl
    rw [h0, Nat.zero_add]
    exact Nat.lt_of_le_of_lt (this _) (by simp)
  · rfl
  · rfl
  · simp only [List.nil_append, answersAt_append, none _ _ _ d1, none _ _ _ d2, none _ _ _ d3, none _ _ _ d4,
      none _ _ _ hdel2.1, none _ _ _ hdel2.2]
    rfl
  · simp only [List.nil_append, answersAt_append, none _ _ _ d1, none _ _ _ d2, none _ _ _ d3, none _ _ _ d4,
      none _ _ _ hdel2.1, none _ _ _ hdel2.2]
    rfl
  · simp
  · have key : ∀ (l P Q : List Entry) (e : Entry) (k : Nat), l = P ++ e :: Q → k = P.length → l[k]? = some e := by
      rintro l P Q e k rfl rfl; simp
    refine ⟨_, _, _, oa.length + oc.length + 1 + ob1.length + ob2.length,
      oa.length + oc.length + 1 + ob1.length + ob2.length + 2 + oc2.length + ob3.length, rfl, ⟨_, rfl, ?_⟩, ?_, ⟨_, rfl, ?_⟩,
      rfl, rfl, rfl, by decide +kernel⟩
    · refine key _ (oa.map (.put 0) ++ oc.map (.put 2) ++ [.set 1 0x029001 0x80 [0x31]] ++ ob1.map (.put 1) ++ ob2.map (.put 1))
        ([.put 2 (.deliver 0 ar)] ++ oc2.map (.put 2) ++ ob3.map (.put 1) ++ [.put 2 (.deliver 1 ar')]) _ _ ?_ ?_
      · simp only [List.map_cons, List.map_nil, List.append_assoc, List.cons_append, List.nil_append]; rfl
      · simp; omega
    · simp; omega
    · refine key _ (oa.map (.put 0) ++ oc.map (.put 2) ++ [.set 1 0x029001 0x80 [0x31]] ++ ob1.map (.put 1) ++ ob2.map (.put 1) ++
        [.put 0 (.deliver 0 aw), .put 2 (.deliver 0 ar)] ++ oc2.map (.put 2) ++ ob3.map (.put 1)) [] _ _ ?_ ?_
      · simp only [List.map_cons, List.map_nil, List.append_assoc, List.cons_append, List.nil_append]; rfl
      · simp; omega

end Uecho
