import Verif.Spec.Faults
import Verif.Props.Atomic
/-!
# C82: faults are contained
-/
namespace Uecho
open Spec
variable {S : Type}

theorem kill_threads (h : Host S) (k i : Nat) :
    (h.killThread k).threads[i]? =
      if k = i then (h.threads[i]?).map (fun s => { s with thread := .panicked }) else h.threads[i]? := by
  unfold Host.threads Host.killThread
  simp only []
  rw [List.getElem?_append, List.getElem?_append, List.length_modify]
  by_cases hi : i < h.node.transport.ucast.length
  · rw [if_pos hi, if_pos hi, List.getElem?_modify]
    split <;> simp_all
  · rw [if_neg hi, if_neg hi]
    by_cases hk : k < h.node.transport.ucast.length
    · rw [if_pos hk, if_neg (by omega)]
    · rw [if_neg hk, List.getElem?_modify]
      by_cases he : k = i
      · subst he; simp
      · have : ¬ (k - h.node.transport.ucast.length = i - h.node.transport.ucast.length) := by omega
        rw [if_neg he]; simp [this]

theorem listening_kill {n : Net S} {j' k' j k : Nat} {fl : List Packet} {bs : List Busy} (hl : Listening n j k) :
    (Listening { n.setHost j' ((n.hosts j').killThread k') with flying := fl, busy := bs } j k ∧ ¬ (j = j' ∧ k = k')) ∨
    (¬ Listening { n.setHost j' ((n.hosts j').killThread k') with flying := fl, busy := bs } j k ∧ j = j' ∧ k = k') := by
  unfold Listening Net.setHost at *
  simp only []
  by_cases hj : j = j'
  · subst hj
    simp only [if_true, kill_threads, true_and]
    by_cases hk : k' = k
    · subst hk
      right
      refine ⟨?_, rfl⟩
      rintro ⟨s, h1, h2⟩
      simp only [if_true, Option.map_eq_some_iff] at h1
      obtain ⟨s', _, rfl⟩ := h1
      cases h2
    · left
      rw [if_neg hk]
      exact ⟨hl, fun h => hk h.symm⟩
  · left
    rw [if_neg hj]
    exact ⟨hl, fun h => hj h.1⟩

theorem threads_crash {h h' : Host S} (ht : h'.node.transport = h.node.transport) (k : Nat) :
    (h'.killThread k).node.transport = (h.killThread k).node.transport := by
  unfold Host.killThread; simp only [ht]

/-- For its threads it makes no difference in which way a host dies. -/
theorem listening_crash {n : Net S} {i k : Nat} {h' : Host S} (ht : h'.node.transport = (n.hosts i).node.transport)
    {fl : List Packet} {bs : List Busy} {p : Nat → ObserverRef → Bool} (j m : Nat) :
    Listening { n.setHost i (h'.killThread k) with flying := fl, busy := bs, poisoned := p } j m ↔
    Listening { n.setHost i ((n.hosts i).killThread k) with flying := fl, busy := bs } j m := by
  unfold Listening Net.setHost Host.threads
  simp only []
  by_cases hj : j = i
  · simp only [if_pos hj, threads_crash ht]
  · simp only [if_neg hj]

theorem up_crash {n : Net S} {i k : Nat} {h' : Host S} (ht : h'.node.transport = (n.hosts i).node.transport)
    {fl : List Packet} {bs : List Busy} {p : Nat → ObserverRef → Bool} (j : Nat) :
    Up { n.setHost i (h'.killThread k) with flying := fl, busy := bs, poisoned := p } j ↔
    Up { n.setHost i ((n.hosts i).killThread k) with flying := fl, busy := bs } j := by
  unfold Up Net.setHost
  simp only []
  by_cases hj : j = i
  · simp only [if_pos hj, threads_crash ht]
  · simp only [if_neg hj]

theorem up_kill {n : Net S} {j' k' j : Nat} {fl : List Packet} {bs : List Busy} (hl : Up n j) :
    Up { n.setHost j' ((n.hosts j').killThread k') with flying := fl, busy := bs } j := by
  unfold Up Net.setHost at *
  simp only []
  split
  · subst_vars
    unfold Host.killThread
    simp only []
    constructor
    · intro h
      have := congrArg List.length h
      rw [List.length_modify] at this
      exact hl.1 (List.eq_nil_of_length_eq_zero this)
    · split
      · exact hl.2
      · intro h
        have := congrArg List.length h
        rw [List.length_modify] at this
        exact hl.2 (List.eq_nil_of_length_eq_zero this)
  · exact hl

theorem poison_received {bytes : List UInt8} {src : SocketAddr} (h : recvLoop [.datagram bytes src] = ([], .panicked)) :
    Poison bytes := by
  refine Classical.byContradiction fun hn => ?_
  obtain ⟨⟨r, m⟩, hp⟩ := parse_of_not_poison hn
  have hp' : Message.parse Message.new (bytes.take maxPacketSize) = .ok (r, m) := hp
  cases r <;> simp [recvLoop, hp'] at h

theorem received_poison {bytes : List UInt8} {src : SocketAddr} (h : Poison bytes) :
    recvLoop [.datagram bytes src] = ([], .panicked) := by
  have := C46_end [] (.datagram bytes src) [] (by simp) (fun hh => hh h)
  simpa [recvLoop] using this

/-- C82: whatever happens on the network, a receiver thread dies only from a fault of its own host: one step of the
network or of a thread ends thread `k` of host `j` only if the step is at host `j`, and a poisonous datagram lay in the
socket of that very thread, or the thread was calling an observer that panics or that has panicked before (in whichever
thread of the host), or code of the application of that host panicked. Running hosts stay running. -/
theorem C82_contained {b : Build} {db : Database} {n n' : Net S} {i : Nat} {outs : List Out}
    (hs : Net.Internal b db n i outs n') (j k : Nat) (hl : Listening n j k) :
    (Up n j → Up n' j) ∧
    (Listening n' j k ∨ i = j ∧ (Poisoned n j k ∨ Cursed b db n j k ∨ Infected n j k ∨ n.wild j = true)) := by
  cases hs with
  | lose l₁ l₂ p hf => exact ⟨id, Or.inl hl⟩
  | receive l₁ l₂ p s hf hs hr hidle =>
    rcases recvOne p.bytes p.src with ⟨m, e, h, _⟩ | h | h
    · unfold Net.received; rw [h]; exact ⟨id, Or.inl hl⟩
    · unfold Net.received; rw [h]
      simp only []
      refine ⟨up_kill (bs := n.busy), ?_⟩
      rcases listening_kill (j' := p.host) (k' := p.srv) (fl := l₁ ++ l₂) (bs := n.busy) hl with ⟨h1, _⟩ | ⟨_, h2, h3⟩
      · exact Or.inl h1
      · exact Or.inr ⟨h2.symm, Or.inl ⟨p, by rw [hf]; simp, h2.symm, h3.symm, poison_received h⟩⟩
    · unfold Net.received; rw [h]; exact ⟨id, Or.inl hl⟩
  | call l₁ l₂ q o os e h' outs ps hb ht hpo hu hi hps =>
    have htr := (invoke_txs hi).1
    have key : ∀ x, (if x = q.host then h' else n.hosts x).node.transport = (n.hosts x).node.transport := by
      intro x; split
      · subst_vars; exact htr
      · rfl
    refine ⟨?_, Or.inl ?_⟩
    · unfold Up Net.setHost; simp only [key]; exact id
    · unfold Listening Net.setHost Host.threads at *; simp only [key]; exact hl
  | die l₁ l₂ q o os e hb ht hpo hu hi =>
    refine ⟨up_kill (fl := n.flying) (bs := l₁ ++ l₂), ?_⟩
    rcases listening_kill (j' := q.host) (k' := q.srv) (fl := n.flying) (bs := l₁ ++ l₂) hl with ⟨h1, _⟩ | ⟨_, h2, h3⟩
    · exact Or.inl h1
    · refine Or.inr ⟨h2.symm, Or.inr (Or.inl ⟨q, by rw [hb]; simp, h2.symm, h3.symm, o, by rw [ht]; simp, e, hu, ?_⟩)⟩
      rw [h2]; exact hi
  | crash l₁ l₂ q o os h' hb ht hpo hw ha =>
    refine ⟨fun hu => (up_crash ha.transport j).mpr (up_kill (k' := q.srv) (fl := n.flying) (bs := l₁ ++ l₂) hu), ?_⟩
    rcases listening_kill (j' := q.host) (k' := q.srv) (fl := n.flying) (bs := l₁ ++ l₂) hl with ⟨h1, _⟩ | ⟨_, h2, h3⟩
    · exact Or.inl ((listening_crash ha.transport j k).mpr h1)
    · exact Or.inr ⟨h2.symm, Or.inr (Or.inr (Or.inr (by rw [h2]; exact hw)))⟩
  | infected l₁ l₂ q o os hb ht hpo =>
    refine ⟨up_kill (fl := n.flying), ?_⟩
    rcases listening_kill (j' := q.host) (k' := q.srv) (fl := n.flying) (bs := l₁ ++ l₂) hl with ⟨h1, _⟩ | ⟨_, h2, h3⟩
    · exact Or.inl h1
    · refine Or.inr ⟨h2.symm, Or.inr (Or.inr (Or.inl ⟨q, by rw [hb]; simp, h2.symm, h3.symm, o, by rw [ht]; simp, ?_⟩))⟩
      rw [h2]; exact hpo
  | skip l₁ l₂ q o os hb ht hpo hm => exact ⟨id, Or.inl hl⟩
  | done l₁ l₂ q hb ht => exact ⟨id, Or.inl hl⟩

/-- C82: a thread that takes a poisonous datagram dies, and so does one whose observer panics. -/
theorem C82_poison_kills (n : Net S) (p : Packet) (s : Server) (rest : List Packet)
    (hs : (n.hosts p.host).threads[p.srv]? = some s) (hr : s.thread = .running) (hp : Poison p.bytes) :
    ¬ Listening (n.received p s rest) p.host p.srv := by
  unfold Net.received
  rw [received_poison hp]
  simp only []
  rcases listening_kill (n := n) (j' := p.host) (k' := p.srv) (fl := rest) (bs := n.busy) ⟨s, hs, hr⟩ with ⟨_, h⟩ | ⟨h, _⟩
  · exact absurd ⟨rfl, rfl⟩ h
  · exact h

theorem addObservers_threads (os : List ObserverRef) (m : Manager) :
    (os.foldl Manager.addObserver m).ucast.map (fun s => s.thread) = m.ucast.map (fun s => s.thread) ∧
    (os.foldl Manager.addObserver m).mcast.map (fun s => s.thread) = m.mcast.map (fun s => s.thread) := by
  induction os generalizing m with
  | nil => exact ⟨rfl, rfl⟩
  | cons o os ih =>
    have := ih (m.addObserver o)
    rw [List.foldl_cons, this.1, this.2]
    simp [Manager.addObserver, Server.addObserver, Function.comp_def]

/-- The two transports have the same threads in the same states. -/
def SameThreads (m m' : Manager) : Prop :=
  m'.ucast.map (fun s => s.thread) = m.ucast.map (fun s => s.thread) ∧
  m'.mcast.map (fun s => s.thread) = m.mcast.map (fun s => s.thread)

theorem node_step_threads {b : Build} {n n' : Node S} {op : Op S} {outs : List Out} (hu : n.isRunning = true)
    (ha : Net.IsApi (.node op)) (hn : NotStop (.node op)) (h : n.step b op = .ok (n', outs)) :
    SameThreads n.transport n'.transport := by
  have same : n'.transport = n.transport → SameThreads n.transport n'.transport := by
    intro h; rw [h]; exact ⟨rfl, rfl⟩
  cases op with
  | addObject o =>
    obtain ⟨r, hr, h⟩ := Res.bind_eq_ok.mp h
    simp only [Res.pure_eq, Res.ok.injEq, Prod.mk.injEq] at h
    apply same; rw [← h.1, addObject_frame hr]
  | addHandler _ => simp only [Node.step, Res.ok.injEq, Prod.mk.injEq] at h; apply same; rw [← h.1]; rfl
  | addObserver _ => simp only [Node.step, Res.ok.injEq, Prod.mk.injEq] at h; apply same; rw [← h.1]; rfl
  | send to msg ok =>
    simp only [Node.step, Node.sendMessage, Res.ok.injEq, Prod.mk.injEq] at h
    apply same; rw [← h.1, Node.updateTid_transport]
  | post to msg ok =>
    simp only [Node.step, Node.postMessage, Res.ok.injEq, Prod.mk.injEq] at h
    apply same; rw [← h.1]; simp only [Node.updateTid_transport]
  | notify msg ok =>
    simp only [Node.step, Node.notify, Res.ok.injEq, Prod.mk.injEq] at h
    apply same; rw [← h.1, Node.updateTid_transport]
  | announceProperty obj prop ok =>
    simp only [Node.step, Node.announceProperty, Node.notify, Res.ok.injEq, Prod.mk.injEq] at h
    apply same; rw [← h.1, Node.updateTid_transport]
  | announce ok =>
    simp only [Node.step, Res.ok.injEq, Prod.mk.injEq] at h
    apply same; rw [← h.1, (announce_frame ok n).1]
  | start menv uenv ok =>
    obtain ⟨r, hr, h⟩ := Res.bind_eq_ok.mp h
    simp only [Res.pure_eq, Res.ok.injEq, Prod.mk.injEq] at h
    rw [← h.1]
    unfold Node.start Node.startTransport at hr
    rw [show n.transport.isRunning = true from hu] at hr
    simp only [Bool.not_true, Bool.false_eq_true, if_false, Res.bind_ok] at hr
    split at hr <;>
    · simp only [Res.pure_eq, Res.ok.injEq] at hr
      rw [← hr]
      simp only []
      rw [(announce_frame _ _).1]
      exact addObservers_threads _ _
  | stop => exact hn.elim
  | setProperty oc c d =>
    simp only [Node.step, Res.ok.injEq, Prod.mk.injEq] at h
    apply same; rw [← h.1, setProperty_frame]
  | edit oc f => simp only [Node.step, Res.ok.injEq, Prod.mk.injEq] at h; apply same; rw [← h.1]; rfl
  | receive msg free ω ok => exact ha.elim

theorem host_step_threads {b : Build} {db : Database} {h h' : Host S} {op : HostOp S} {outs : List Out}
    (hu : h.node.isRunning = true) (ha : Net.IsApi op) (hn : NotStop op) (hs : h.step b db op = .ok (h', outs)) :
    SameThreads h.node.transport h'.node.transport := by
  cases op with
  | call o e m => exact ha.elim
  | node op =>
    obtain ⟨r, hr, hs⟩ := Res.bind_eq_ok.mp hs
    simp only [Res.pure_eq, Res.ok.injEq, Prod.mk.injEq] at hs
    obtain ⟨rfl, rfl⟩ := hs
    refine node_step_threads hu ha ?_ hr
    cases op <;> first | trivial | exact hn
  | search code ok =>
    simp only [Host.step, Res.ok.injEq] at hs
    have h1 : h' = (h.searchObject ok code).2.1 := by rw [hs]
    subst h1
    exact node_step_threads (b := b) (op := .notify ((searchMessage.setSeoj nodeProfileCode).setDeoj code) ok) hu trivial trivial rfl
  | send r m free ok =>
    simp only [Host.step, Res.ok.injEq, Host.sendMessage] at hs
    cases free with
    | false =>
      simp only [Bool.not_false, if_true, Prod.mk.injEq] at hs
      obtain ⟨rfl, rfl⟩ := hs
      exact ⟨rfl, rfl⟩
    | true =>
      simp only [Bool.not_true, Bool.false_eq_true, if_false, Prod.mk.injEq] at hs
      obtain ⟨rfl, rfl⟩ := hs
      exact node_step_threads (b := b) (op := .send ⟨r.addr.ip, port⟩ (m.setSeoj nodeProfileCode) ok) hu trivial trivial rfl
  | post r m ok =>
    simp only [Host.step, Res.ok.injEq, Host.postMessage, Prod.mk.injEq] at hs
    obtain ⟨rfl, rfl⟩ := hs
    exact node_step_threads (b := b) (op := .post ⟨r.addr.ip, port⟩ (m.setSeoj nodeProfileCode) ok) hu trivial trivial rfl
  | start menv uenv ok =>
    obtain ⟨x, hx, hs⟩ := Res.bind_eq_ok.mp hs
    simp only [Res.pure_eq, Res.ok.injEq] at hs
    unfold Host.start at hx
    obtain ⟨r, hr, hx⟩ := Res.bind_eq_ok.mp hx
    have hx' : x.2 = ({ h with node := r.2.1 }, r.2.2) := by
      split at hx <;>
      · simp only [Res.pure_eq, Res.ok.injEq] at hx; rw [← hx]
    rw [hx'] at hs
    simp only [Prod.mk.injEq] at hs
    obtain ⟨rfl, rfl⟩ := hs
    refine node_step_threads (b := b) (op := .start menv uenv ok) (outs := r.2.2) hu trivial trivial ?_
    simp only [Node.step, hr, Res.bind_ok, Res.pure_eq]
  | stop => exact hn.elim

theorem running_of_up {n : Net S} {j : Nat} (h : Up n j) : (n.hosts j).node.isRunning = true := by
  unfold Node.isRunning Manager.isRunning
  have h1 := h.1
  have h2 := h.2
  rw [← List.isEmpty_eq_false_iff] at h1 h2
  rw [h1, h2]; rfl

theorem sameThreads_get {h h' : Host S} (hs : SameThreads h.node.transport h'.node.transport) (k : Nat) :
    (h'.threads[k]?).map (fun s => s.thread) = (h.threads[k]?).map (fun s => s.thread) := by
  unfold Host.threads
  rw [← List.getElem?_map, ← List.getElem?_map, List.map_append, List.map_append, hs.1, hs.2]

theorem sameThreads_up {n : Net S} {j : Nat} {h' : Host S} (hs : SameThreads (n.hosts j).node.transport h'.node.transport)
    (hu : Up n j) : h'.node.transport.ucast ≠ [] ∧ h'.node.transport.mcast ≠ [] := by
  constructor
  · intro h
    have := hs.1
    rw [h] at this
    exact hu.1 (List.map_eq_nil_iff.mp this.symm)
  · intro h
    have := hs.2
    rw [h] at this
    exact hu.2 (List.map_eq_nil_iff.mp this.symm)

/-- C82: no call of an application ends a receiver thread, except a call that stops its own node. -/
theorem C82_calls {b : Build} {db : Database} {n n' : Net S} {i : Nat} {op : HostOp S} {outs : List Out}
    (hs : Net.Api b db n i op outs n') (j k : Nat) (hu : Up n j) (hn : i = j → NotStop op) (hl : Listening n j k) :
    Up n' j ∧ Listening n' j k := by
  cases hs with
  | mk h' outs ps ha hs hps =>
    by_cases hj : j = i
    · subst hj
      have hst := host_step_threads (running_of_up hu) ha (hn rfl) hs
      constructor
      · unfold Up Net.setHost; simp only [if_true]; exact sameThreads_up hst hu
      · obtain ⟨s, h1, h2⟩ := hl
        have := sameThreads_get hst k
        rw [h1] at this
        simp only [Option.map_some] at this
        obtain ⟨s', h3, h4⟩ := Option.map_eq_some_iff.mp this
        refine ⟨s', ?_, by rw [h4, h2]⟩
        unfold Net.setHost; simp only [if_true]; exact h3
    · unfold Up Listening Net.setHost at *
      simp only [if_neg hj]; exact ⟨hu, hl⟩

/-- An observer counts as having panicked only after a thread of the same host has called one that panics. -/
theorem poisoned_internal {b : Build} {db : Database} {n n' : Net S} {i : Nat} {outs : List Out}
    (hs : Net.Internal b db n i outs n') (j : Nat) (h : ∀ o, n.poisoned j o = false) (hwj : n.wild j = false) :
    (∀ o, n'.poisoned j o = false) ∨ i = j ∧ ∃ k, Cursed b db n j k := by
  cases hs with
  | lose l₁ l₂ p hf => exact Or.inl h
  | receive l₁ l₂ p s hf hs hr hidle => left; unfold Net.received; split <;> exact h
  | call l₁ l₂ q o os e h' outs ps hb ht hpo hu hi hps => exact Or.inl h
  | die l₁ l₂ q o os e hb ht hpo hu hi =>
    by_cases hj : q.host = j
    · exact Or.inr ⟨hj, q.srv, q, by rw [hb]; simp, hj, rfl, o, by rw [ht]; simp, e, hu, by rw [← hj]; exact hi⟩
    · left
      intro o'
      show (if j = q.host ∧ o' = o then true else n.poisoned j o') = false
      rw [if_neg (fun hh => hj hh.1.symm)]; exact h o'
  | crash l₁ l₂ q o os h' hb ht hpo hw ha =>
    have hj : j ≠ q.host := by rintro rfl; rw [hwj] at hw; cases hw
    left
    intro o'
    show (if j = q.host ∧ o' = o then true else n.poisoned j o') = false
    rw [if_neg (fun hh => hj hh.1)]; exact h o'
  | infected l₁ l₂ q o os hb ht hpo => exact Or.inl h
  | skip l₁ l₂ q o os hb ht hpo hm => exact Or.inl h
  | done l₁ l₂ q hb ht => exact Or.inl h

/-- Whether the code of an application may panic does not change. -/
theorem wild_reached {b : Build} {db : Database} {rule : Nat → HostOp S → Prop} {n₀ n : Net S}
    (hx : Reached b db rule n₀ n) : n₀.wild = n.wild := by
  induction hx with
  | init => rfl
  | internal hx hs ih =>
    rw [ih]
    cases hs with
    | receive l₁ l₂ p s hf hs hr hidle => unfold Net.received; split <;> rfl
    | _ => rfl
  | api hx hs hr ih => rw [ih]; cases hs; rfl

/-- C82: on a network of any number of hosts, whatever the other hosts and their applications do and whatever is sent,
a receiver thread of a running host goes on taking datagrams as long as its own application does not stop the node,
unless at some moment a poisonous datagram lies in its own socket, or an observer can panic on a message received by some
thread of the same host. The request handlers and observers of this host's application do not panic (`hcalm`); those of
other hosts may. -/
theorem C82_survives {b : Build} {db : Database} {n₀ n : Net S} (j k : Nat)
    (hx : Reached b db (fun i op => i = j → NotStop op) n₀ n) (hu : Up n₀ j) (hl : Listening n₀ j k)
    (hp : ∀ o, n₀.poisoned j o = false) (hcalm : n₀.wild j = false) :
    (Up n j ∧ Listening n j k) ∨
    ∃ n₁, Reached b db (fun i op => i = j → NotStop op) n₀ n₁ ∧
      (Listening n₁ j k ∧ Poisoned n₁ j k ∨ ∃ k', Cursed b db n₁ j k') := by
  have calm : ∀ {rule : Nat → HostOp S → Prop} {n : Net S}, Reached b db rule n₀ n → n.wild j = false :=
    fun hx => (wild_reached hx) ▸ hcalm
  have key : (Up n j ∧ Listening n j k ∧ ∀ o, n.poisoned j o = false) ∨
      ∃ n₁, Reached b db (fun i op => i = j → NotStop op) n₀ n₁ ∧
        (Listening n₁ j k ∧ Poisoned n₁ j k ∨ ∃ k', Cursed b db n₁ j k') := by
    induction hx with
    | init => exact Or.inl ⟨hu, hl, hp⟩
    | internal hx hs ih =>
      rcases ih with ⟨h1, h2, h0⟩ | h
      · rcases poisoned_internal hs j h0 (calm hx) with h5 | ⟨_, h5⟩
        · obtain ⟨h3, h4 | ⟨_, h4 | h4 | h4 | h4⟩⟩ := C82_contained hs j k h2
          · exact Or.inl ⟨h3 h1, h4, h5⟩
          · exact Or.inr ⟨_, hx, Or.inl ⟨h2, h4⟩⟩
          · exact Or.inr ⟨_, hx, Or.inr ⟨k, h4⟩⟩
          · obtain ⟨q, _, _, _, o, _, ho⟩ := h4
            rw [h0] at ho; cases ho
          · rw [calm hx] at h4; cases h4
        · exact Or.inr ⟨_, hx, Or.inr h5⟩
      · exact Or.inr h
    | api hx hs hr ih =>
      rcases ih with ⟨h1, h2, h0⟩ | h
      · obtain ⟨h3, h4⟩ := C82_calls hs j k h1 hr h2
        exact Or.inl ⟨h3, h4, by cases hs; exact h0⟩
      · exact Or.inr h
  exact key.imp (fun h => ⟨h.1, h.2.1⟩) id

/-! ## Which datagrams end a thread -/

theorem step_valid {b : Build} {n n' : Node S} {op : Op S} {outs : List Out} (hn : ∀ o ∈ n.objects, ValidObject b o)
    (ha : Net.IsApi (.node op)) (hop : KeepsValid b (.node op)) (h : n.step b op = .ok (n', outs)) :
    ∀ o ∈ n'.objects, ValidObject b o := by
  cases op with
  | addObject o =>
    obtain ⟨n₁, h1, h2, h3⟩ := updateNodeProfile_valid (b := b) (n := { n with objects := (n.objects ++ [o]) }) (by simp)
      (by
        intro o' ho'
        rcases List.mem_append.mp ho' with h | h
        · exact hn o' h
        · rw [List.mem_singleton.mp h]; exact hop)
    simp only [Node.step, Node.addObject, h1, Res.bind_ok, Res.pure_eq, Res.ok.injEq, Prod.mk.injEq] at h
    rw [← h.1]; exact h2
  | addHandler _ => simp only [Node.step, Res.ok.injEq, Prod.mk.injEq] at h; rw [← h.1]; exact hn
  | addObserver _ => simp only [Node.step, Res.ok.injEq, Prod.mk.injEq] at h; rw [← h.1]; exact hn
  | send to msg ok =>
    simp only [Node.step, Node.sendMessage, Res.ok.injEq, Prod.mk.injEq] at h
    rw [← h.1, Node.updateTid_objects]; exact hn
  | post to msg ok =>
    simp only [Node.step, Node.postMessage, Res.ok.injEq, Prod.mk.injEq] at h
    rw [← h.1]; simp only [Node.updateTid_objects]; exact hn
  | notify msg ok =>
    simp only [Node.step, Node.notify, Res.ok.injEq, Prod.mk.injEq] at h
    rw [← h.1, Node.updateTid_objects]; exact hn
  | announceProperty obj prop ok =>
    simp only [Node.step, Node.announceProperty, Node.notify, Res.ok.injEq, Prod.mk.injEq] at h
    rw [← h.1, Node.updateTid_objects]; exact hn
  | announce ok =>
    simp only [Node.step, Res.ok.injEq, Prod.mk.injEq] at h
    rw [← h.1, (announce_frame ok n).1]; exact hn
  | start menv uenv ok =>
    obtain ⟨r, hr, h⟩ := Res.bind_eq_ok.mp h
    simp only [Res.pure_eq, Res.ok.injEq, Prod.mk.injEq] at h
    rw [← h.1]
    obtain ⟨up', m', ht', hcase⟩ := start_result (r := r.1) (n' := r.2.1) (outs := r.2.2) hr
    rcases hcase with ⟨_, _, hn', _⟩ | ⟨_, n₀, hn₀, _, hn', _⟩
    · rw [hn']; exact hn
    · rw [hn', (announce_frame ok n₀).1, hn₀]
      intro o ho
      obtain ⟨o', ho', rfl⟩ := List.mem_map.mp ho
      refine mapProperties_valid (fun c p => ?_) (hn o' ho')
      show (attrsOf (startedProperty c p)).code = (attrsOf p).code
      rw [startedProperty_attrs]
  | stop =>
    obtain ⟨r, hr, h⟩ := Res.bind_eq_ok.mp h
    simp only [Res.pure_eq, Res.ok.injEq, Prod.mk.injEq] at h
    by_cases ht : ThreadsOk n.transport
    · obtain ⟨n₁, h1, h2⟩ := stop_ok (b := b) ⟨hn, ht⟩
      rw [hr] at h1
      simp only [Res.ok.injEq] at h1
      rw [← h.1, h1]; exact h2.objects
    · rw [(C42_stop n).2 ht] at hr; cases hr
  | setProperty oc c d =>
    simp only [Node.step, Res.ok.injEq, Prod.mk.injEq] at h
    have h0 := h.1
    subst h0
    unfold Node.setProperty
    split
    · exact hn
    · split
      · exact hn
      · exact updateObject_valid (fun o ho => setPropertyData_valid ho _ _) _ hn
  | edit oc f =>
    simp only [Node.step, Res.ok.injEq, Prod.mk.injEq] at h
    rw [← h.1]
    exact updateObject_valid hop _ hn
  | receive msg free ω ok => exact ha.elim

theorem host_step_valid {b : Build} {db : Database} {h h' : Host S} {op : HostOp S} {outs : List Out}
    (hn : ∀ o ∈ h.node.objects, ValidObject b o) (ha : Net.IsApi op) (hop : KeepsValid b op)
    (hs : h.step b db op = .ok (h', outs)) : ∀ o ∈ h'.node.objects, ValidObject b o := by
  rcases host_api (own := fun _ => some 0) (i := 0) ha
    (by cases op with
        | node op => cases op <;> first | trivial | exact fun _ _ => rfl
        | start _ _ _ => exact fun _ _ => rfl
        | _ => trivial) hs with ⟨h1, _⟩ | ⟨nop, ha', _, _, hst, hk⟩
  · rw [h1]; exact hn
  · refine step_valid hn ha' ?_ hst
    rcases hk with rfl | ⟨h1, h2⟩
    · exact hop
    · cases nop with
      | addObject o => exact absurd rfl (h1 o)
      | edit oc f => exact absurd rfl (h2 oc f)
      | _ => trivial

/-- What the receiver threads of host `j` work on has been received, and its objects have valid property codes. -/
structure FaultInv (b : Build) (n : Net S) (j : Nat) : Prop where
  busy : ∀ q ∈ n.busy, q.host = j → Received q.msg
  objects : ∀ o ∈ (n.hosts j).node.objects, ValidObject b o

theorem faultInv_internal {b : Build} {db : Database} {n n' : Net S} {i j : Nat} {outs : List Out} (hi : FaultInv b n j)
    (hs : Net.Internal b db n i outs n') : FaultInv b n' j := by
  have kill : ∀ (j' k' : Nat), ∀ o ∈ ((n.setHost j' ((n.hosts j').killThread k')).hosts j).node.objects, ValidObject b o := by
    intro j' k' o ho
    unfold Net.setHost at ho
    simp only [] at ho
    split at ho
    · subst_vars; exact hi.objects o ho
    · exact hi.objects o ho
  cases hs with
  | lose l₁ l₂ p hf => exact ⟨hi.busy, hi.objects⟩
  | receive l₁ l₂ p s hf hs hr hidle =>
    rcases recvOne p.bytes p.src with ⟨m, e, h, _⟩ | h | h
    · unfold Net.received; rw [h]
      refine ⟨?_, hi.objects⟩
      intro q hq hh
      rcases List.mem_append.mp hq with hq | hq
      · exact hi.busy q hq hh
      · rw [List.mem_singleton.mp hq]
        refine ⟨p.bytes, p.src, ?_⟩
        rw [h]
        simp only [recvLoop] at h
        split at h
        · simp at h
        · simp at h
        · simp only [Prod.mk.injEq] at h; rw [← h.2]
    · unfold Net.received; rw [h]
      exact ⟨hi.busy, kill _ _⟩
    · unfold Net.received; rw [h]; exact ⟨hi.busy, hi.objects⟩
  | call l₁ l₂ q o os e h' outs ps hb ht hpo hu hinv hps =>
    constructor
    · intro x hx hh
      simp only [List.mem_append, List.mem_cons] at hx
      rcases hx with hx | rfl | hx
      · exact hi.busy x (by rw [hb]; simp [hx]) hh
      · exact hi.busy q (by rw [hb]; simp) hh
      · exact hi.busy x (by rw [hb]; simp [hx]) hh
    · intro x hx
      unfold Net.setHost at hx
      simp only [] at hx
      split at hx
      · subst_vars
        cases o with
        | node =>
          simp only [Host.invoke, Node.observeTry] at hinv
          obtain ⟨r, hr, hinv⟩ := Res.bind_eq_ok.mp hinv
          simp only [Res.pure_eq, Res.ok.injEq, Prod.mk.injEq] at hinv
          rw [← hinv.1] at hx
          split at hr
          · simp only [Res.ok.injEq] at hr; rw [← hr] at hx; exact hi.objects x hx
          · exact observe_valid hi.objects hr x hx
        | controller =>
          simp only [Host.invoke] at hinv
          obtain ⟨r, hr, hinv⟩ := Res.bind_eq_ok.mp hinv
          simp only [Res.pure_eq, Res.ok.injEq, Prod.mk.injEq] at hinv
          rw [← hinv.1] at hx; exact hi.objects x hx
        | device =>
          simp only [Host.invoke, Res.ok.injEq, Prod.mk.injEq] at hinv
          rw [← hinv.1] at hx; exact hi.objects x hx
        | user k =>
          simp only [Host.invoke, Res.ok.injEq, Prod.mk.injEq] at hinv
          rw [← hinv.1] at hx; exact hi.objects x hx
      · exact hi.objects x hx
  | die l₁ l₂ q o os e hb ht hpo hu hinv =>
    refine ⟨?_, kill _ _⟩
    intro x hx hh
    simp only [List.mem_append] at hx
    rcases hx with hx | hx <;> exact hi.busy x (by rw [hb]; simp [hx]) hh
  | crash l₁ l₂ q o os h' hb ht hpo hw ha =>
    refine ⟨?_, ?_⟩
    · intro x hx hh
      simp only [List.mem_append] at hx
      rcases hx with hx | hx <;> exact hi.busy x (by rw [hb]; simp [hx]) hh
    · obtain ⟨s, l, rfl⟩ := ha.same
      intro x hx
      refine hi.objects x ?_
      simp only [Net.setHost, Net.poison] at hx
      split at hx
      · subst_vars; exact hx
      · exact hx
  | infected l₁ l₂ q o os hb ht hpo =>
    refine ⟨?_, kill _ _⟩
    intro x hx hh
    simp only [List.mem_append] at hx
    rcases hx with hx | hx <;> exact hi.busy x (by rw [hb]; simp [hx]) hh
  | skip l₁ l₂ q o os hb ht hpo hm =>
    refine ⟨?_, hi.objects⟩
    intro x hx hh
    simp only [List.mem_append, List.mem_cons] at hx
    rcases hx with hx | rfl | hx
    · exact hi.busy x (by rw [hb]; simp [hx]) hh
    · exact hi.busy q (by rw [hb]; simp) hh
    · exact hi.busy x (by rw [hb]; simp [hx]) hh
  | done l₁ l₂ q hb ht =>
    refine ⟨?_, hi.objects⟩
    intro x hx hh
    simp only [List.mem_append] at hx
    rcases hx with hx | hx <;> exact hi.busy x (by rw [hb]; simp [hx]) hh

theorem faultInv_api {b : Build} {db : Database} {n n' : Net S} {i j : Nat} {op : HostOp S} {outs : List Out}
    (hi : FaultInv b n j) (hs : Net.Api b db n i op outs n') (hop : i = j → KeepsValid b op) : FaultInv b n' j := by
  cases hs with
  | mk h' outs ps ha hs hps =>
    refine ⟨hi.busy, ?_⟩
    unfold Net.setHost
    simp only []
    split
    · subst_vars; exact host_step_valid hi.objects ha (hop rfl) hs
    · exact hi.objects

theorem cursed_5E {b : Build} {ω₀ : HashOrder} {db : Database} (hdb : standardDb b ω₀ = .ok db) {n : Net S} {j k : Nat}
    (hi : FaultInv b n j) (hc : Cursed b db n j k) : Answered5E n j k := by
  obtain ⟨q, hq, h1, h2, o, ho, e, hu, hp⟩ := hc
  cases o with
  | node =>
    simp only [Host.invoke, Node.observeTry] at hp
    split at hp
    · simp at hp
    · cases hob : (n.hosts j).node.observe b e.ω e.ok q.msg with
      | ok r => rw [hob] at hp; simp at hp
      | panic =>
        have := (C57_receive_panics_iff b e.ω e.ok _ hi.objects q.msg (hi.busy q hq h1)).mp hob
        exact ⟨q, hq, h1, h2, ho, this.1, this.2⟩
  | controller =>
    obtain ⟨r, h⟩ := observeController_ok hdb e hu (n.hosts j).remotes q.msg
    simp [Host.invoke, h] at hp
  | device => simp [Host.invoke] at hp
  | user k => simp [Host.invoke] at hp

/-- C82: the two kinds of datagrams that can end a receiver thread. On a network of any number of hosts, whatever the
other hosts and their applications do, whatever is sent and whatever the request handlers do, a receiver thread of a
running host whose objects have valid property codes goes on taking datagrams until its application stops the node,
unless at some moment a poisonous datagram lies in its own socket, or a thread of the same host (itself or another one) has
received an error response of service 0x5E with the TID the node used last. The request handlers and observers written by
the application of this host do not panic (`hcalm`); those of other hosts may. -/
theorem C82_two_datagrams {b : Build} {ω₀ : HashOrder} {db : Database} (hdb : standardDb b ω₀ = .ok db) {n₀ n : Net S}
    (j k : Nat) (hx : Reached b db (fun i op => i = j → NotStop op ∧ KeepsValid b op) n₀ n) (hu : Up n₀ j)
    (hl : Listening n₀ j k) (hb : ∀ q ∈ n₀.busy, q.host ≠ j) (ho : ∀ o ∈ (n₀.hosts j).node.objects, ValidObject b o)
    (hp : ∀ o, n₀.poisoned j o = false) (hcalm : n₀.wild j = false) :
    (Up n j ∧ Listening n j k) ∨
    ∃ n₁, Reached b db (fun i op => i = j → NotStop op ∧ KeepsValid b op) n₀ n₁ ∧
      (Listening n₁ j k ∧ Poisoned n₁ j k ∨ ∃ k', Answered5E n₁ j k') := by
  have inv : ∀ n, Reached b db (fun i op => i = j → NotStop op ∧ KeepsValid b op) n₀ n → FaultInv b n j := by
    intro n hx
    induction hx with
    | init => exact ⟨fun q hq hh => absurd hh (hb q hq), ho⟩
    | internal hx hs ih => exact faultInv_internal ih hs
    | api hx hs hr ih => exact faultInv_api ih hs (fun h => (hr h).2)
  have calm : ∀ {rule : Nat → HostOp S → Prop} {n : Net S}, Reached b db rule n₀ n → n.wild j = false :=
    fun hx => (wild_reached hx) ▸ hcalm
  have key : (Up n j ∧ Listening n j k ∧ ∀ o, n.poisoned j o = false) ∨
      ∃ n₁, Reached b db (fun i op => i = j → NotStop op ∧ KeepsValid b op) n₀ n₁ ∧
        (Listening n₁ j k ∧ Poisoned n₁ j k ∨ ∃ k', Answered5E n₁ j k') := by
    induction hx with
    | init => exact Or.inl ⟨hu, hl, hp⟩
    | internal hx hs ih =>
      rcases ih with ⟨h1, h2, h0⟩ | h
      · rcases poisoned_internal hs j h0 (calm hx) with h5 | ⟨_, k', h5⟩
        · obtain ⟨h3, h4 | ⟨_, h4 | h4 | h4 | h4⟩⟩ := C82_contained hs j k h2
          · exact Or.inl ⟨h3 h1, h4, h5⟩
          · exact Or.inr ⟨_, hx, Or.inl ⟨h2, h4⟩⟩
          · exact Or.inr ⟨_, hx, Or.inr ⟨k, cursed_5E hdb (inv _ hx) h4⟩⟩
          · obtain ⟨q, _, _, _, o, _, ho⟩ := h4
            rw [h0] at ho; cases ho
          · rw [calm hx] at h4; cases h4
        · exact Or.inr ⟨_, hx, Or.inr ⟨k', cursed_5E hdb (inv _ hx) h5⟩⟩
      · exact Or.inr h
    | api hx hs hr ih =>
      rcases ih with ⟨h1, h2, h0⟩ | h
      · obtain ⟨h3, h4⟩ := C82_calls hs j k h1 (fun h => (hr h).1) h2
        exact Or.inl ⟨h3, h4, by cases hs; exact h0⟩
      · exact Or.inr h
  exact key.imp (fun h => ⟨h.1, h.2.1⟩) id

/-! ## A fault is not contained in the thread it occurs in -/

/-- What has panicked stays so: there is no way to repair a poisoned mutex. -/
theorem poisoned_reached {b : Build} {db : Database} {rule : Nat → HostOp S → Prop} {n₀ n : Net S}
    (hx : Reached b db rule n₀ n) (j : Nat) (o : ObserverRef) (h : n₀.poisoned j o = true) : n.poisoned j o = true := by
  induction hx with
  | init => exact h
  | internal hx hs ih =>
    cases hs with
    | receive l₁ l₂ p s hf hs hr hidle => unfold Net.received; split <;> exact ih
    | die l₁ l₂ q o' os e hb ht hpo hu hi =>
      show (if j = q.host ∧ o = o' then true else _) = true
      split
      · rfl
      · exact ih
    | crash l₁ l₂ q o' os h' hb ht hpo hw ha =>
      show (if j = q.host ∧ o = o' then true else _) = true
      split
      · rfl
      · exact ih
    | _ => exact ih
  | api hx hs hr ih => cases hs; exact ih

/-- C82: once the node's observer has panicked, in any receiver thread, the node is dead for the network: whatever is sent
to whichever of its servers, and whatever the applications do (a restart of the node included), in every later execution
none of its threads answers or delivers anything. -/
theorem C82_dead_node {b : Build} {db : Database} {rule : Nat → HostOp S → Prop} {n₀ n n' : Net S} (j : Nat)
    (hp : n₀.poisoned j .node = true) (hx : Reached b db rule n₀ n) {outs : List Out}
    (hs : Net.Internal b db n j outs n') : outs = [] := by
  have hpn := poisoned_reached hx j .node hp
  cases hs with
  | call l₁ l₂ q o os e h' _ ps hb ht hpo hu hi hps =>
    cases o with
    | node => rw [hpn] at hpo; cases hpo
    | controller =>
      simp only [Host.invoke] at hi
      obtain ⟨r, hr, hi⟩ := Res.bind_eq_ok.mp hi
      simp only [Res.pure_eq, Res.ok.injEq, Prod.mk.injEq] at hi
      exact hi.2.symm
    | device => simp only [Host.invoke, Res.ok.injEq, Prod.mk.injEq] at hi; exact hi.2.symm
    | user k => simp only [Host.invoke, Res.ok.injEq, Prod.mk.injEq] at hi; exact hi.2.symm
  | _ => rfl

/-- One step leaves the observers of a thread alone and revives no thread. -/
theorem internal_servers {b : Build} {db : Database} {n n' : Net S} {i : Nat} {outs : List Out}
    (hs : Net.Internal b db n i outs n') (j k : Nat) (s' : Server) (h' : (n'.hosts j).threads[k]? = some s') :
    ∃ s, (n.hosts j).threads[k]? = some s ∧ s'.observers = s.observers ∧ (s'.thread = .running → s.thread = .running) := by
  have kill : ∀ (j' k' : Nat) (h : (if j = j' then (n.hosts j').killThread k' else n.hosts j).threads[k]? = some s'),
      ∃ s, (n.hosts j).threads[k]? = some s ∧ s'.observers = s.observers ∧ (s'.thread = .running → s.thread = .running) := by
    intro j' k' h
    by_cases hj : j = j'
    · subst hj
      rw [if_pos rfl, kill_threads] at h
      split at h
      · obtain ⟨s, h1, rfl⟩ := Option.map_eq_some_iff.mp h
        exact ⟨s, h1, rfl, nofun⟩
      · exact ⟨s', h, rfl, id⟩
    · rw [if_neg hj] at h
      exact ⟨s', h, rfl, id⟩
  cases hs with
  | lose l₁ l₂ p hf => exact ⟨s', h', rfl, id⟩
  | receive l₁ l₂ p s hf hs hr hidle =>
    rcases recvOne p.bytes p.src with ⟨m, e, h, _⟩ | h | h
    · unfold Net.received at h'; rw [h] at h'; exact ⟨s', h', rfl, id⟩
    · unfold Net.received at h'; rw [h] at h'; exact kill _ _ h'
    · unfold Net.received at h'; rw [h] at h'; exact ⟨s', h', rfl, id⟩
  | call l₁ l₂ q o os e h'' outs ps hb ht hpo hu hi hps =>
    have htr := (invoke_txs hi).1
    refine ⟨s', ?_, rfl, id⟩
    have h2 : (if j = q.host then h'' else n.hosts j).threads[k]? = some s' := h'
    by_cases hj : j = q.host
    · rw [if_pos hj] at h2
      unfold Host.threads at h2 ⊢
      rw [htr] at h2
      rw [hj]; exact h2
    · rw [if_neg hj] at h2; exact h2
  | die l₁ l₂ q o os e hb ht hpo hu hi => exact kill _ _ h'
  | crash l₁ l₂ q o os h₁ hb ht hpo hw ha =>
    refine kill q.host q.srv ?_
    have h2 : (if j = q.host then h₁.killThread q.srv else n.hosts j).threads[k]? = some s' := h'
    by_cases hj : j = q.host
    · rw [if_pos hj] at h2 ⊢
      unfold Host.threads at h2 ⊢
      rw [threads_crash ha.transport] at h2; exact h2
    · rw [if_neg hj] at h2 ⊢; exact h2
  | infected l₁ l₂ q o os hb ht hpo => exact kill _ _ h'
  | skip l₁ l₂ q o os hb ht hpo hm => exact ⟨s', h', rfl, id⟩
  | done l₁ l₂ q hb ht => exact ⟨s', h', rfl, id⟩

/-- C82: once the node's observer has panicked, every other thread of the node (whose server has the node registered once)
ends at the next message it takes: if it is busy with a message the node has still to see, then whatever happens, once it is
no longer busy it has ended. The application of the host can do nothing about it (its calls panic, see C57, so it makes
none). -/
theorem C82_threads_end {b : Build} {db : Database} {n₀ n : Net S} (j k : Nat) (hp : n₀.poisoned j .node = true)
    (hone : ∀ s, (n₀.hosts j).threads[k]? = some s → s.observers.count .node ≤ 1)
    (hbusy : ∃ q ∈ n₀.busy, q.host = j ∧ q.srv = k ∧ ObserverRef.node ∈ q.todo)
    (hx : Reached b db (fun i _ => i ≠ j) n₀ n) (hend : ∀ q ∈ n.busy, ¬ (q.host = j ∧ q.srv = k)) : ¬ Listening n j k := by
  have key : (∀ s, (n.hosts j).threads[k]? = some s → s.observers.count .node ≤ 1) ∧
      ((∃ q ∈ n.busy, q.host = j ∧ q.srv = k ∧ ObserverRef.node ∈ q.todo) ∨ ¬ Listening n j k) := by
    clear hend
    induction hx with
    | init => exact ⟨hone, Or.inl hbusy⟩
    | @api n n' i op outs hx hs hr ih =>
      cases hs with
      | mk h' _ ps ha hs hps =>
        have hj : ({ n.setHost i h' with flying := n.flying ++ ps } : Net S).hosts j = n.hosts j := by
          simp [Net.setHost, Ne.symm hr]
        refine ⟨by rw [hj]; exact ih.1, ?_⟩
        rcases ih.2 with h | h
        · exact Or.inl h
        · refine Or.inr ?_
          unfold Listening at h ⊢
          rw [hj]; exact h
    | @internal n n' i outs hx hs ih =>
      have hpn := poisoned_reached hx j .node hp
      refine ⟨?_, ?_⟩
      · intro s' h'
        obtain ⟨s, h1, h2, _⟩ := internal_servers hs j k s' h'
        rw [h2]; exact ih.1 s h1
      · rcases ih.2 with ⟨q₀, hq, hj, hk, hn⟩ | h
        · have other : ∀ (l₁ l₂ mid : List Busy) (q : Busy), n.busy = l₁ ++ q :: l₂ → n'.busy = l₁ ++ mid ++ l₂ → q₀ ≠ q →
              ∃ q ∈ n'.busy, q.host = j ∧ q.srv = k ∧ ObserverRef.node ∈ q.todo := by
            intro l₁ l₂ mid q hb hb' hne
            refine ⟨q₀, ?_, hj, hk, hn⟩
            rw [hb] at hq
            rw [hb']
            simp only [List.mem_append, List.mem_cons] at hq ⊢
            rcases hq with hq | hq | hq
            · exact Or.inl (Or.inl hq)
            · exact absurd hq hne
            · exact Or.inr hq
          have dead : ∀ (q : Busy) (fl : List Packet) (bs : List Busy), q₀ = q →
              ¬ Listening { n.setHost q.host ((n.hosts q.host).killThread q.srv) with flying := fl, busy := bs } j k := by
            intro q fl bs he
            by_cases hl : Listening n j k
            · rcases listening_kill (j' := q.host) (k' := q.srv) (fl := fl) (bs := bs) hl with ⟨_, h⟩ | ⟨h, _⟩
              · exact absurd ⟨by rw [← he, hj], by rw [← he, hk]⟩ h
              · exact h
            · rintro ⟨s, h1, h2⟩
              apply hl
              have h1' : (if j = q.host then (n.hosts q.host).killThread q.srv else n.hosts j).threads[k]? = some s := h1
              rw [← he, if_pos hj.symm, hj, kill_threads, hk, if_pos rfl] at h1'
              obtain ⟨s₀, _, rfl⟩ := Option.map_eq_some_iff.mp h1'
              cases h2
          by_cases hlive : Listening n' j k
          · refine Or.inl ?_
            cases hs with
            | lose l₁ l₂ p hf => exact ⟨q₀, hq, hj, hk, hn⟩
            | receive l₁ l₂ p s hf hs hr hidle =>
              refine ⟨q₀, ?_, hj, hk, hn⟩
              unfold Net.received
              split
              · exact List.mem_append_left _ hq
              · exact hq
              · exact hq
            | call l₁ l₂ q o os e h'' outs ps hb ht hpo hu hi hps =>
              by_cases he : q₀ = q
              · subst he
                refine ⟨{ q₀ with todo := os }, by simp, hj, hk, ?_⟩
                rw [ht] at hn
                rcases List.mem_cons.mp hn with h | h
                · rw [← h, hj, hpn] at hpo; cases hpo
                · exact h
              · exact other l₁ l₂ [{ q with todo := os }] q hb (by simp) he
            | die l₁ l₂ q o os e hb ht hpo hu hi =>
              by_cases he : q₀ = q
              · exact absurd hlive (dead q n.flying (l₁ ++ l₂) he)
              · exact other l₁ l₂ [] q hb (by simp) he
            | crash l₁ l₂ q o os h' hb ht hpo hw ha =>
              by_cases he : q₀ = q
              · exact absurd ((listening_crash ha.transport j k).mp hlive) (dead q n.flying (l₁ ++ l₂) he)
              · exact other l₁ l₂ [] q hb (by simp) he
            | infected l₁ l₂ q o os hb ht hpo =>
              by_cases he : q₀ = q
              · exact absurd hlive (dead q n.flying (l₁ ++ l₂) he)
              · exact other l₁ l₂ [] q hb (by simp) he
            | skip l₁ l₂ q o os hb ht hpo hm =>
              by_cases he : q₀ = q
              · subst he
                refine ⟨{ q₀ with todo := os }, by simp, hj, hk, ?_⟩
                rw [ht] at hn
                rcases List.mem_cons.mp hn with h | h
                · exfalso
                  obtain ⟨s, h1, _⟩ := hlive
                  have h1' : (n.hosts j).threads[k]? = some s := h1
                  have h2 := hm s (by rw [hj, hk]; exact h1')
                  have h3 := ih.1 s h1'
                  rw [← h] at h2
                  omega
                · exact h
              · exact other l₁ l₂ [{ q with todo := os }] q hb (by simp) he
            | done l₁ l₂ q hb ht =>
              by_cases he : q₀ = q
              · subst he; rw [ht] at hn; cases hn
              · exact other l₁ l₂ [] q hb (by simp) he
          · exact Or.inr hlive
        · refine Or.inr ?_
          rintro ⟨s', h1, h2⟩
          obtain ⟨s, h3, _, h4⟩ := internal_servers hs j k s' h1
          exact h ⟨s, h3, h4 h2⟩
  rcases key.2 with ⟨q, h1, h2, h3, _⟩ | h
  · exact absurd ⟨h2, h3⟩ (hend q h1)
  · exact h

/-- C82: the two threads of a node in one step each: an error response 0x5E with the last TID ends the thread that takes it;
then a well-formed message ends the other one. -/
def exCurse : List UInt8 := [0x10, 0x81, 0, 0, 0x05, 0xFF, 0x01, 0x0E, 0xF0, 0x01, 0x5E, 0, 0]
/-- A well-formed read request. -/
def exInnocent : List UInt8 := [0x10, 0x81, 0, 7, 0x05, 0xFF, 0x01, 0x0E, 0xF0, 0x01, 0x62, 1, 0x80, 0]

/-- A poisonous datagram in the socket of the unicast server (thread 0) of host 0. -/
def exSick : Net Unit :=
  { exLink exHostA exHostB with
    flying := [⟨⟨.v4 0xC0A80002, 3610⟩, 0, 0, [0x10, 0x81, 0, 1, 5, 0xFF, 1, 0x0E, 0xF0, 1, 0x6E, 0]⟩] }

/-- The hypotheses of C82 are met by a network of two running hosts, and both cases occur: the poisonous datagram ends
thread 0 of host 0, and thread 1 of host 0 and the threads of host 1 go on. -/
example (db : Database) : ∃ n', Reached .dev db (fun i op => i = 0 → NotStop op ∧ KeepsValid .dev op) exSick n' ∧
    Up exSick 0 ∧ Listening exSick 0 0 ∧ Listening exSick 0 1 ∧ Poisoned exSick 0 0 ∧
    (∀ q ∈ exSick.busy, q.host ≠ 0) ∧ (∀ o ∈ (exSick.hosts 0).node.objects, ValidObject .dev o) ∧
    (∀ o, exSick.poisoned 0 o = false) ∧
    ¬ Listening n' 0 0 ∧ Listening n' 0 1 ∧ Listening n' 1 0 ∧ Listening n' 1 1 := by
  have hr := Reached.init (b := .dev) (db := db) (rule := fun i op => i = 0 → NotStop op ∧ KeepsValid .dev op) (n₀ := exSick)
  have hp : Poison [0x10, 0x81, 0, 1, 5, 0xFF, 1, 0x0E, 0xF0, 1, 0x6E, 0] :=
    ⟨1, 0x05FF01, 0x0EF001, 0x6E, [], by decide, by decide, by decide, by decide, by decide, by decide⟩
  have h1 := hr.internal (Net.Internal.receive [] [] ⟨⟨.v4 0xC0A80002, 3610⟩, 0, 0, _⟩
    ⟨.v4 0xC0A80001, [.node], .running⟩ rfl rfl rfl (by intro q hq; cases hq))
  refine ⟨_, h1, ⟨nofun, nofun⟩, ⟨_, rfl, rfl⟩, ⟨_, rfl, rfl⟩, ⟨_, List.mem_cons_self, rfl, rfl, hp⟩,
    (by intro q hq; cases hq), (by intro o ho; cases ho), fun _ => rfl, C82_poison_kills exSick _ _ _ rfl rfl hp, ?_, ?_, ?_⟩ <;>
  · unfold Net.received
    rw [received_poison hp]
    exact ⟨_, rfl, rfl⟩

/-- C82, what it does not say: a fault is not contained in the thread it occurs in. Host 0 has two running receiver threads.
The first takes an error response 0x5E with the last TID and dies; the second then takes an ordinary read request and dies
as well. (Also the non-vacuity of `C82_dead_node`.) -/
theorem C82_thread_fails (db : Database) : ∃ n n' : Net Unit,
    Listening (exLink exHostA exHostB) 0 0 ∧ Listening (exLink exHostA exHostB) 0 1 ∧
    Reached .dev db (fun _ _ => False) { exLink exHostA exHostB with
      flying := [⟨⟨.v4 0xC0A80002, 3610⟩, 0, 0, exCurse⟩, ⟨⟨.v4 0xC0A80002, 3610⟩, 0, 1, exInnocent⟩] } n ∧
    ¬ Listening n 0 0 ∧ Listening n 0 1 ∧ n.poisoned 0 .node = true ∧ ¬ Poisoned n 0 1 ∧
    (∀ k, ¬ Answered5E n 0 k) ∧
    Reached .dev db (fun _ _ => False) n n' ∧ ¬ Listening n' 0 0 ∧ ¬ Listening n' 0 1 ∧ Listening n' 1 0 ∧
    Listening n' 1 1 := by
  obtain ⟨m, m', h1, h2, h3⟩ : ∃ m m', recvLoop [.datagram exCurse ⟨.v4 0xC0A80002, 3610⟩] = ([m], .running) ∧
      recvLoop [.datagram exInnocent ⟨.v4 0xC0A80002, 3610⟩] = ([m'], .running) ∧
      exHostA.observe .dev .ascending allOk m = .panic := by
    exact ⟨_, _, rfl, rfl, rfl⟩
  let p₀ : Packet := ⟨⟨.v4 0xC0A80002, 3610⟩, 0, 0, exCurse⟩
  let p₁ : Packet := ⟨⟨.v4 0xC0A80002, 3610⟩, 0, 1, exInnocent⟩
  let srv : Server := ⟨.v4 0xC0A80001, [.node], .running⟩
  let x₀ : Net Unit := { exLink exHostA exHostB with flying := [p₀, p₁] }
  let x₁ : Net Unit := { exLink exHostA exHostB with flying := [p₁], busy := [⟨0, 0, m, [.node]⟩] }
  have r₁ : Net.Internal .dev db x₀ 0 [] x₁ := by
    have h := Net.Internal.receive (b := .dev) (db := db) (n := x₀) [] [p₁] p₀ srv rfl rfl rfl (by intro q hq; cases hq)
    have e : x₀.received p₀ srv ([] ++ [p₁]) = x₁ := by unfold Net.received; rw [h1]; rfl
    rw [e] at h; exact h
  have r₂ := Net.Internal.die (b := .dev) (db := db) (n := x₁) [] [] ⟨0, 0, m, [.node]⟩ .node []
    ⟨true, true, .ascending, fun _ => List.replicate 16 0, allOk⟩ rfl rfl rfl (fun _ => rfl) (by
      show ((Host.ofNode exHostA).invoke .dev db _ m .node) = _
      simp only [Host.invoke, Host.ofNode, Node.observeTry, Bool.not_true, Bool.false_eq_true, if_false, h3, Res.bind_panic])
  generalize hx₂ : ({ (x₁.setHost 0 ((x₁.hosts 0).killThread 0)).poison 0 .node with busy := [] ++ [] } : Net Unit) = x₂ at r₂
  have hl : ¬ Listening x₂ 0 0 ∧ Listening x₂ 0 1 ∧ Listening x₂ 1 0 ∧ Listening x₂ 1 1 := by
    subst hx₂
    refine ⟨?_, ⟨srv, rfl, rfl⟩, ⟨_, rfl, rfl⟩, ⟨_, rfl, rfl⟩⟩
    rintro ⟨s, hs, hr⟩
    simp only [Option.some.injEq, Net.poison, Net.setHost, Host.threads] at hs
    have : s = { srv with thread := .panicked } := (Option.some.inj hs).symm
    rw [this] at hr; cases hr
  have hpo : x₂.poisoned 0 .node = true := by subst hx₂; rfl
  have hf : x₂.flying = [p₁] := by subst hx₂; rfl
  have hbz : x₂.busy = [] := by subst hx₂; rfl
  have hs : (x₂.hosts 0).threads[1]? = some srv := by subst hx₂; rfl
  have r₃ := Net.Internal.receive (b := .dev) (db := db) (n := x₂) [] [] p₁ srv hf hs rfl (by intro q hq; rw [hbz] at hq; cases hq)
  have e₃ : x₂.received p₁ srv ([] ++ []) = { x₂ with flying := [], busy := [⟨0, 1, m', [.node]⟩] } := by
    unfold Net.received; rw [h2, hbz]; rfl
  rw [e₃] at r₃
  have r₄ := Net.Internal.infected (b := .dev) (db := db)
    (n := ({ x₂ with flying := [], busy := [⟨0, 1, m', [.node]⟩] } : Net Unit)) [] [] ⟨0, 1, m', [.node]⟩ .node [] rfl rfl hpo
  refine ⟨x₂, _, ⟨srv, rfl, rfl⟩, ⟨srv, rfl, rfl⟩, (Reached.init.internal r₁).internal r₂, hl.1, hl.2.1, hpo, ?_, ?_,
    (Reached.init.internal r₃).internal r₄, ?_⟩
  · rintro ⟨p, hp, _, _, hbad⟩
    rw [hf] at hp
    rw [List.mem_singleton.mp hp] at hbad
    have := received_poison (src := ⟨.v4 0xC0A80002, 3610⟩) hbad
    rw [h2] at this; cases this
  · rintro k ⟨q, hq, _⟩
    rw [hbz] at hq; cases hq
  · subst hx₂
    refine ⟨?_, ?_, ⟨_, rfl, rfl⟩, ⟨_, rfl, rfl⟩⟩ <;>
    · rintro ⟨s, hs, hr⟩
      have : s = { srv with thread := .panicked } := (Option.some.inj hs).symm
      rw [this] at hr; cases hr

/-- Non-vacuity of `C82_threads_end`: the second thread of host 0 has taken a read request after the first one died, and ends. -/
example (db : Database) : ∃ n₀ n : Net Unit, n₀.poisoned 0 .node = true ∧ Listening n₀ 0 1 ∧
    (∀ s, (n₀.hosts 0).threads[1]? = some s → s.observers.count .node ≤ 1) ∧
    (∃ q ∈ n₀.busy, q.host = 0 ∧ q.srv = 1 ∧ ObserverRef.node ∈ q.todo) ∧ Reached .dev db (fun i _ => i ≠ 0) n₀ n ∧
    (∀ q ∈ n.busy, ¬ (q.host = 0 ∧ q.srv = 1)) ∧ ¬ Listening n 0 1 := by
  let n₀ : Net Unit := { (exLink exHostA exHostB).poison 0 .node with busy := [⟨0, 1, Message.new, [.node]⟩] }
  have hp : n₀.poisoned 0 .node = true := rfl
  have h1 : ∀ s, (n₀.hosts 0).threads[1]? = some s → s.observers.count .node ≤ 1 := by
    intro s hs
    have : s = ⟨.v4 0xC0A80001, [.node], .running⟩ := (Option.some.inj hs).symm
    rw [this]; decide
  have hx := (Reached.init (b := .dev) (db := db) (rule := fun i _ => i ≠ 0) (n₀ := n₀)).internal
    (Net.Internal.infected [] [] ⟨0, 1, Message.new, [.node]⟩ .node [] rfl rfl hp)
  have hend : ∀ q ∈ ([] : List Busy), ¬ (q.host = 0 ∧ q.srv = 1) := by intro q hq; cases hq
  exact ⟨n₀, _, hp, ⟨_, rfl, rfl⟩, h1, ⟨_, List.mem_cons_self, rfl, rfl, by simp⟩, hx, hend,
    C82_threads_end 0 1 hp h1 ⟨_, List.mem_cons_self, rfl, rfl, by simp⟩ hx hend⟩

/-- C82, the restriction on the application's code (`hcalm`) is needed: on a network on which nothing is sent, an observer
written by the application of host 0 panics, and the receiver thread that called it is gone; the threads of host 1 are
not affected. -/
theorem C82_app_fails (db : Database) : ∃ n₀ n : Net Unit, n₀.wild 0 = true ∧ n₀.flying = [] ∧
    (∀ j o, n₀.poisoned j o = false) ∧ Listening n₀ 0 0 ∧ Listening n₀ 1 0 ∧
    Reached .dev db (fun _ _ => False) n₀ n ∧ ¬ Listening n 0 0 ∧ n.poisoned 0 (.user 3) = true ∧
    Listening n 0 1 ∧ Listening n 1 0 ∧ Listening n 1 1 := by
  let n₀ : Net Unit := { exLink exHostA exHostB with
    wild := fun i => i == 0, busy := [⟨0, 0, Message.new, [.user 3]⟩] }
  have hx := (Reached.init (b := .dev) (db := db) (rule := fun _ _ => False) (n₀ := n₀)).internal
    (Net.Internal.crash [] [] ⟨0, 0, Message.new, [.user 3]⟩ (.user 3) [] _ rfl rfl rfl rfl (.observer 3))
  refine ⟨n₀, _, rfl, rfl, fun _ _ => rfl, ⟨_, rfl, rfl⟩, ⟨_, rfl, rfl⟩, hx, ?_, rfl, ⟨_, rfl, rfl⟩, ⟨_, rfl, rfl⟩, ⟨_, rfl, rfl⟩⟩
  rintro ⟨s, h1, h2⟩
  have h3 : s = ⟨.v4 0xC0A80001, [.node], .panicked⟩ := (Option.some.inj h1).symm
  rw [h3] at h2; cases h2

end Uecho
