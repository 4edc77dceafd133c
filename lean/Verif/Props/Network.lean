import Verif.Spec.Network
import Verif.Props.Crash
/-!
# Several hosts on one network: C72
-/
namespace Uecho
open Spec
variable {S : Type}

/-! ## Datagrams -/

theorem addPropertyBytes_prefix (ps : List WProperty) (acc : List UInt8) :
    ∃ t, Message.addPropertyBytes acc ps = acc ++ t := by
  have key : ∀ (ps : List WProperty) (acc : List UInt8),
      ∃ t, ps.foldl (fun acc p => acc ++ Message.propBytes p) acc = acc ++ t := by
    intro ps
    induction ps with
    | nil => intro acc; exact ⟨[], by simp⟩
    | cons p ps ih =>
      intro acc
      obtain ⟨t, ht⟩ := ih (acc ++ Message.propBytes p)
      exact ⟨Message.propBytes p ++ t, by rw [List.foldl_cons, ht, List.append_assoc]⟩
  obtain ⟨t, ht⟩ := key ps (acc ++ [UInt8.ofNat ps.length])
  exact ⟨[UInt8.ofNat ps.length] ++ t, by unfold Message.addPropertyBytes; rw [ht, List.append_assoc]⟩

/-- An encoded message begins with its header fields. -/
theorem bytes_header (m : Message) : ∃ t, m.bytes = [m.ehd.1, m.ehd.2, m.tidBytes.1, m.tidBytes.2, m.seojBytes.1,
    m.seojBytes.2.1, m.seojBytes.2.2, m.deojBytes.1, m.deojBytes.2.1, m.deojBytes.2.2, m.esvByte] ++ t := by
  unfold Message.bytes
  simp only []
  generalize [m.ehd.1, m.ehd.2, m.tidBytes.1, m.tidBytes.2, m.seojBytes.1, m.seojBytes.2.1, m.seojBytes.2.2,
    m.deojBytes.1, m.deojBytes.2.1, m.deojBytes.2.2, m.esvByte] = hd
  split
  · obtain ⟨t, ht⟩ := addPropertyBytes_prefix m.setProperties hd
    rw [ht]
    obtain ⟨t', ht'⟩ := addPropertyBytes_prefix m.getProperties (hd ++ t)
    exact ⟨_, by rw [ht', List.append_assoc]⟩
  · obtain ⟨t, ht⟩ := addPropertyBytes_prefix m.setProperties hd
    rw [ht]
    obtain ⟨t', ht'⟩ := addPropertyBytes_prefix m.getProperties (hd ++ t)
    exact ⟨_, by rw [ht', List.append_assoc]⟩
  · exact addPropertyBytes_prefix m.properties hd

/-- Byte 10 of an encoded message is its service. -/
theorem bytes_esv (m : Message) : m.bytes[10]? = some m.esvByte := by
  obtain ⟨t, ht⟩ := bytes_header m
  rw [ht]; rfl

theorem isRequestDatagram_bytes (m : Message) : isRequestDatagram m.bytes = isRequestByte m.esvByte := by
  unfold isRequestDatagram; rw [bytes_esv]

/-- What one datagram gives. -/
theorem recvOne (bytes : List UInt8) (src : SocketAddr) :
    (∃ m e, recvLoop [.datagram bytes src] = ([m], e) ∧ Message.parse Message.new (bytes.take maxPacketSize) = .ok (true, m.setFrom Message.new.sender) ∧
      m.sender = src ∧ bytes[10]? = some m.esvByte) ∨
    recvLoop [.datagram bytes src] = ([], .panicked) ∨ recvLoop [.datagram bytes src] = ([], .running) := by
  simp only [recvLoop]
  cases hp : Message.parse Message.new (bytes.take maxPacketSize) with
  | panic => right; left; rfl
  | ok r =>
    obtain ⟨b, m⟩ := r
    cases b with
    | false => right; right; rfl
    | true =>
      left
      refine ⟨m.setFrom src, .running, rfl, ?_, rfl, ?_⟩
      · obtain ⟨f, rest, _, _, _, _, _, _, _, hs, _⟩ := Message.parse_sound _ _ _ hp
        rw [← hs]; rfl
      · obtain ⟨f, rest, hv, hd, hf, h2, h3, h4, h5, _, h7⟩ := Message.parse_sound _ _ _ hp
        show bytes[10]? = some m.esvByte
        rw [h5]
        have h10 : (bytes.take maxPacketSize)[10]? = some f.esv := by
          rw [hd]
          unfold Frame.encode
          have l2 := be_length 2 f.tid
          have l3 := be_length 3 f.seoj
          have l3' := be_length 3 f.deoj
          generalize be 2 f.tid = x at l2
          generalize be 3 f.seoj = y at l3
          generalize be 3 f.deoj = z at l3'
          match x, y, z, l2, l3, l3' with
          | [_, _], [_, _, _], [_, _, _], _, _, _ => rfl
        rw [List.getElem?_take] at h10
        simpa [maxPacketSize] using h10

/-! ## One observer call -/

/-- Everything a node transmits while observing is a reply with a response service. -/
theorem observe_txs {b : Build} {ω : HashOrder} {ok : Nat → Bool} {n n' : Node S} {msg : Message} {outs : List Out}
    (h : n.observe b ω ok msg = .ok (n', outs)) :
    (handed outs = [] ∧ txs outs = []) ∨
    ∃ u, replies outs = [u] ∧ isRequestByte msg.esvByte = true ∧ isResponseByte u.esvByte = true ∧
      ∀ t ∈ txs outs, t.bytes = u.bytes ∧ ∃ s ∈ n.transport.ucast ++ n.transport.mcast, t.iface = s.ifaddr := by
  cases hr : isRequestByte msg.esvByte with
  | false =>
    have := Node.observe_nonrequest hr h
    exact Or.inl ⟨this.2.2, this.2.1⟩
  | true =>
    obtain ⟨q, pouts, r, hq, hm, hres⟩ := Node.observe_first h
    have hq' : q = n ∧ pouts = [] := by
      rcases hq with hq | ⟨h', _⟩
      · exact hq
      · simp [hr] at h'
    obtain ⟨rfl, rfl⟩ := hq'
    have htr : r.2.transport = q.transport :=
      (Outcome_lastTid (Node.messageReceived_outcome (res := r.1) (n' := r.2) hm)).2.2.2
    cases hr1 : r.1 with
    | none =>
      rw [hr1] at hres
      left; rw [hres.2]; exact ⟨rfl, rfl⟩
    | some res =>
      rw [hr1] at hres
      simp only [] at hres
      split at hres
      · rename_i hresp
        have hb : isResponseByte res.esvByte = true := by rw [← isResponse_byte]; exact hresp
        right
        refine ⟨(r.2.updateTid res).1, ?_⟩
        have hb' : isResponseByte (r.2.updateTid res).1.esvByte = true := by
          rw [(updateTid_fields r.2 res).2.2.1]; exact hb
        split at hres
        · rw [hres.2]
          refine ⟨?_, rfl, hb', ?_⟩
          · simp only [List.nil_append, Node.sendMessage]
            unfold replies; rw [handed_handed_cons]; rfl
          · simp only [List.nil_append, Node.sendMessage]
            rw [txs_handed_cons, Node.updateTid_transport, htr]
            intro t ht
            rcases Manager.send_cases ok q.transport ⟨msg.sender.ip, port⟩ (r.2.updateTid res).1 with ⟨_, h⟩ | ⟨_, s, hs, h⟩
            · rw [h] at ht; simp at ht
            · rw [h] at ht
              simp only [List.mem_cons, List.not_mem_nil, or_false] at ht
              subst ht
              exact ⟨rfl, s, by simp [hs], rfl⟩
        · rw [hres.2]
          refine ⟨?_, rfl, hb', ?_⟩
          · simp only [List.nil_append, Node.notify]
            unfold replies; rw [handed_handed_cons]; rfl
          · simp only [List.nil_append, Node.notify]
            rw [txs_handed_cons, Node.updateTid_transport, htr]
            intro t ht
            obtain ⟨k, h, _⟩ := Manager.notify_cases ok q.transport (r.2.updateTid res).1
            rw [h] at ht
            obtain ⟨s, hs, rfl⟩ := List.mem_map.mp ht
            exact ⟨rfl, s, by simp [List.mem_of_mem_take hs], rfl⟩
      · left; rw [hres.2]; exact ⟨rfl, rfl⟩

/-- One call of an observer: the transport stays; only the node itself, and only for a request, puts anything out: at
most one reply, with a response service. -/
theorem invoke_txs {b : Build} {db : Database} {e : CallEnv} {msg : Message} {h h' : Host S} {o : ObserverRef}
    {outs : List Out} (hi : h.invoke b db e msg o = .ok (h', outs)) :
    h'.node.transport = h.node.transport ∧
    ((replies outs = [] ∧ txs outs = []) ∨
    ∃ u, o = .node ∧ replies outs = [u] ∧ isRequestByte msg.esvByte = true ∧ isResponseByte u.esvByte = true ∧
      ∀ t ∈ txs outs, t.bytes = u.bytes ∧ ∃ s ∈ h.threads, t.iface = s.ifaddr) := by
  cases o with
  | node =>
    simp only [Host.invoke] at hi
    obtain ⟨x, hx, hi⟩ := Res.bind_eq_ok.mp hi
    simp only [Res.pure_eq, Res.ok.injEq, Prod.mk.injEq] at hi
    obtain ⟨rfl, rfl⟩ := hi
    unfold Node.observeTry at hx
    split at hx
    · simp only [Res.ok.injEq] at hx
      subst hx; exact ⟨rfl, Or.inl ⟨rfl, rfl⟩⟩
    · refine ⟨(observe_frame (n' := x.1) (outs := x.2) hx).2.1, ?_⟩
      rcases observe_txs (n' := x.1) (outs := x.2) hx with ⟨h1, h2⟩ | ⟨u, h1, h2⟩
      · left; exact ⟨by unfold replies; rw [h1]; rfl, h2⟩
      · right; exact ⟨u, rfl, h1, h2⟩
  | controller =>
    simp only [Host.invoke] at hi
    obtain ⟨x, hx, hi⟩ := Res.bind_eq_ok.mp hi
    simp only [Res.pure_eq, Res.ok.injEq, Prod.mk.injEq] at hi
    obtain ⟨rfl, rfl⟩ := hi
    exact ⟨rfl, Or.inl ⟨rfl, rfl⟩⟩
  | device =>
    simp only [Host.invoke, Res.ok.injEq, Prod.mk.injEq] at hi
    obtain ⟨rfl, rfl⟩ := hi
    exact ⟨rfl, Or.inl ⟨rfl, rfl⟩⟩
  | user k =>
    simp only [Host.invoke, Res.ok.injEq, Prod.mk.injEq] at hi
    obtain ⟨rfl, rfl⟩ := hi
    exact ⟨rfl, Or.inl ⟨rfl, rfl⟩⟩

theorem mem_txs {outs : List Out} {t : Tx} : Out.tx t ∈ outs ↔ t ∈ txs outs := by
  unfold txs
  rw [List.mem_filterMap]
  constructor
  · intro h; exact ⟨_, h, rfl⟩
  · rintro ⟨o, ho, h⟩
    cases o <;> simp at h
    subst h; exact ho

theorem response_not_request {e : UInt8} (h : isResponseByte e = true) : isRequestByte e = false := by
  revert h; revert e; decide +kernel

/-- The copies made of what one observer call puts out. -/
theorem copies_response {b : Build} {db : Database} {e : CallEnv} {msg : Message} {h h' : Host S} {o : ObserverRef}
    {outs : List Out} {ps : List Packet} (hi : h.invoke b db e msg o = .ok (h', outs)) (hps : Net.CopiesOf outs ps) :
    (∀ p ∈ ps, isRequestByte msg.esvByte = true ∧ o = .node ∧ isRequestDatagram p.bytes = false ∧
      ∃ u ∈ replies outs, p.bytes = u.bytes) := by
  intro p hp
  obtain ⟨t, ht, hb, _⟩ := hps p hp
  rw [mem_txs] at ht
  rcases (invoke_txs hi).2 with ⟨_, h2⟩ | ⟨u, h1, h2, h3, h4, h5⟩
  · rw [h2] at ht; simp at ht
  · refine ⟨h3, h1, ?_, u, by rw [h2]; simp, hb.trans (h5 t ht).1⟩
    rw [hb, (h5 t ht).1, isRequestDatagram_bytes]
    exact response_not_request h4

/-! ## C72 -/

/-- The measure that every internal step decreases. -/
def netMeasure (n : Net S) : Nat × Nat × Nat × Nat :=
  ((n.flying.filter (fun p => isRequestDatagram p.bytes)).length,
   ((n.busy.filter (fun q => isRequestByte q.msg.esvByte)).map (fun q => q.todo.length + 1)).sum,
   n.flying.length,
   (n.busy.map (fun q => q.todo.length + 1)).sum)

/-- Lexicographic order on four numbers. -/
@[instance_reducible] def lex4 : WellFoundedRelation (Nat × Nat × Nat × Nat) :=
  Prod.lex Nat.lt_wfRel (Prod.lex Nat.lt_wfRel (Prod.lex Nat.lt_wfRel Nat.lt_wfRel))

theorem lex4_of {a b c d a' b' c' d' : Nat}
    (h : a' < a ∨ (a' = a ∧ (b' < b ∨ (b' = b ∧ (c' < c ∨ (c' = c ∧ d' < d)))))) :
    lex4.rel (a', b', c', d') (a, b, c, d) := by
  rcases h with h | ⟨rfl, h | ⟨rfl, h | ⟨rfl, h⟩⟩⟩
  · exact Prod.Lex.left _ _ h
  · exact Prod.Lex.right _ (Prod.Lex.left _ _ h)
  · exact Prod.Lex.right _ (Prod.Lex.right _ (Prod.Lex.left _ _ h))
  · exact Prod.Lex.right _ (Prod.Lex.right _ (Prod.Lex.right _ h))

/-- Removing a datagram, whatever happens to the busy threads if it was a request. -/
theorem measure_remove {l₁ l₂ : List Packet} {p : Packet} {n n' : Net S} (hf : n.flying = l₁ ++ p :: l₂)
    (hf' : n'.flying = l₁ ++ l₂)
    (hb : n'.busy = n.busy ∨ ∃ q, n'.busy = n.busy ++ [q] ∧ isRequestByte q.msg.esvByte = isRequestDatagram p.bytes) :
    lex4.rel (netMeasure n') (netMeasure n) := by
  unfold netMeasure
  rw [hf, hf']
  apply lex4_of
  cases hp : isRequestDatagram p.bytes with
  | true =>
    left
    simp only [List.filter_append, List.filter_cons, hp, if_true, List.length_append, List.length_cons]
    omega
  | false =>
    right
    simp only [List.filter_append, List.filter_cons, hp, Bool.false_eq_true, if_false, List.length_append,
      List.length_cons, true_and]
    right
    refine ⟨?_, Or.inl (by omega)⟩
    rcases hb with hb | ⟨q, hb, hq⟩
    · rw [hb]
    · rw [hb]
      simp [List.filter_append, hq, hp]

/-- Every internal step decreases the measure. -/
theorem internal_decreases {b : Build} {db : Database} {n n' : Net S} {i : Nat} {outs : List Out}
    (h : Net.Internal b db n i outs n') : lex4.rel (netMeasure n') (netMeasure n) := by
  cases h with
  | lose l₁ l₂ p hf => exact measure_remove hf rfl (Or.inl rfl)
  | receive l₁ l₂ p s hf hs hr hidle =>
    rcases recvOne p.bytes p.src with ⟨m, e, h, _, _, h10⟩ | h | h
    · refine measure_remove hf (by unfold Net.received; rw [h]) (Or.inr ⟨⟨p.host, p.srv, m, s.observers⟩, ?_, ?_⟩)
      · unfold Net.received; rw [h]
      · unfold isRequestDatagram; rw [h10]
    · exact measure_remove hf (by unfold Net.received; rw [h]) (Or.inl (by unfold Net.received; rw [h]; rfl))
    · exact measure_remove hf (by unfold Net.received; rw [h]) (Or.inl (by unfold Net.received; rw [h]))
  | call l₁ l₂ q o os e h' outs ps hb ht hpo hu hi hps =>
    have hc := copies_response hi hps
    unfold netMeasure
    simp only [hb]
    apply lex4_of
    have hps0 : ps.filter (fun p => isRequestDatagram p.bytes) = [] := by
      rw [List.filter_eq_nil_iff]
      intro p hp; rw [(hc p hp).2.2.1]; simp
    right
    refine ⟨by simp [List.filter_append, hps0], ?_⟩
    cases hq : isRequestByte q.msg.esvByte with
    | true =>
      left
      simp only [List.filter_append, List.filter_cons, hq, if_true, List.map_append, List.map_cons, List.sum_append,
        List.sum_cons, ht, List.length_cons]
      omega
    | false =>
      right
      have hnil : ps = [] := by
        cases ps with
        | nil => rfl
        | cons p ps =>
          have := (hc p (by simp)).1
          rw [hq] at this; simp at this
      subst hnil
      refine ⟨by simp [List.filter_append, hq], Or.inr ⟨by simp, ?_⟩⟩
      simp only [List.map_append, List.map_cons, List.sum_append, List.sum_cons, ht, List.length_cons]
      omega
  | die l₁ l₂ q o os e hb ht hpo hu hi =>
    unfold netMeasure
    simp only [hb]
    apply lex4_of
    right
    refine ⟨rfl, ?_⟩
    cases hq : isRequestByte q.msg.esvByte with
    | true =>
      left
      simp only [List.filter_append, List.filter_cons, hq, if_true, List.map_append, List.map_cons, List.sum_append,
        List.sum_cons]
      omega
    | false =>
      right
      refine ⟨by simp [List.filter_append, hq], Or.inr ⟨rfl, ?_⟩⟩
      simp only [List.map_append, List.map_cons, List.sum_append, List.sum_cons]
      omega
  | crash l₁ l₂ q o os h' hb ht hpo hw ha =>
    unfold netMeasure
    simp only [hb]
    apply lex4_of
    right
    refine ⟨rfl, ?_⟩
    cases hq : isRequestByte q.msg.esvByte with
    | true =>
      left
      simp only [List.filter_append, List.filter_cons, hq, if_true, List.map_append, List.map_cons, List.sum_append,
        List.sum_cons]
      omega
    | false =>
      right
      refine ⟨by simp [List.filter_append, hq], Or.inr ⟨rfl, ?_⟩⟩
      simp only [List.map_append, List.map_cons, List.sum_append, List.sum_cons]
      omega
  | infected l₁ l₂ q o os hb ht hpo =>
    unfold netMeasure
    simp only [hb]
    apply lex4_of
    right
    refine ⟨rfl, ?_⟩
    cases hq : isRequestByte q.msg.esvByte with
    | true =>
      left
      simp only [List.filter_append, List.filter_cons, hq, if_true, List.map_append, List.map_cons, List.sum_append,
        List.sum_cons]
      omega
    | false =>
      right
      refine ⟨by simp [List.filter_append, hq], Or.inr ⟨rfl, ?_⟩⟩
      simp only [List.map_append, List.map_cons, List.sum_append, List.sum_cons]
      omega
  | skip l₁ l₂ q o os hb ht hpo hm =>
    unfold netMeasure
    simp only [hb]
    apply lex4_of
    right
    refine ⟨rfl, ?_⟩
    cases hq : isRequestByte q.msg.esvByte with
    | true =>
      left
      simp only [List.filter_append, List.filter_cons, hq, if_true, List.map_append, List.map_cons, List.sum_append,
        List.sum_cons, ht, List.length_cons]
      omega
    | false =>
      right
      refine ⟨by simp [List.filter_append, hq], Or.inr ⟨rfl, ?_⟩⟩
      simp only [List.map_append, List.map_cons, List.sum_append, List.sum_cons, ht, List.length_cons]
      omega
  | done l₁ l₂ q hb ht =>
    unfold netMeasure
    simp only [hb]
    apply lex4_of
    right
    refine ⟨rfl, ?_⟩
    cases hq : isRequestByte q.msg.esvByte with
    | true =>
      left
      simp only [List.filter_append, List.filter_cons, hq, if_true, List.map_append, List.map_cons, List.sum_append,
        List.sum_cons]
      omega
    | false =>
      right
      refine ⟨by simp [List.filter_append, hq], Or.inr ⟨rfl, ?_⟩⟩
      simp only [List.map_append, List.map_cons, List.sum_append, List.sum_cons]
      omega

/-- C72: whatever is under way and whatever the hosts are doing, a network of nodes comes to rest: there is no infinite
execution in which no application calls the library. Nodes and controllers never keep answering each other. -/
theorem C72_comes_to_rest (b : Build) (db : Database) :
    ¬ ∃ (f : Nat → Net S), ∀ k, ∃ i outs, Net.Internal b db (f k) i outs (f (k + 1)) := by
  rintro ⟨f, hf⟩
  have key : ∀ (x : Nat × Nat × Nat × Nat), ∀ g : Nat → Net S,
      (∀ k, ∃ i outs, Net.Internal b db (g k) i outs (g (k + 1))) → netMeasure (g 0) = x → False := by
    intro x
    induction x using lex4.wf.induction with
    | _ x ih =>
      intro g hg hx
      obtain ⟨i, outs, h0⟩ := hg 0
      have hd := internal_decreases h0
      rw [hx] at hd
      exact ih _ hd (fun k => g (k + 1)) (fun k => hg (k + 1)) rfl
  exact key _ f hf rfl

/-- C72: every datagram that appears on the network in such an execution carries a response service and belongs to a
reply to a request that some receiver thread has received. In particular a response or notification never makes anybody
transmit anything. -/
theorem C72_only_responses {b : Build} {db : Database} {n n' : Net S} {i : Nat} {outs : List Out}
    (h : Net.Internal b db n i outs n') :
    (∀ p ∈ n'.flying, p ∈ n.flying ∨ ((∃ e, p.bytes[10]? = some e ∧ isResponseByte e = true) ∧
      ∃ q ∈ n.busy, q.host = i ∧ isRequestByte q.msg.esvByte = true)) ∧
    ((∀ q ∈ n.busy, isRequestByte q.msg.esvByte = false) → replies outs = [] ∧ txs outs = []) := by
  have sub : ∀ {l₁ l₂ : List Packet} {p : Packet} {x : Packet}, n.flying = l₁ ++ p :: l₂ → x ∈ l₁ ++ l₂ → x ∈ n.flying := by
    intro l₁ l₂ p x h1 h2
    rw [h1]
    rcases List.mem_append.mp h2 with h | h <;> simp [h]
  cases h with
  | lose l₁ l₂ p hf => exact ⟨fun x hx => Or.inl (sub hf hx), fun _ => ⟨rfl, rfl⟩⟩
  | receive l₁ l₂ p s hf hs hr hidle =>
    refine ⟨fun x hx => Or.inl (sub hf ?_), fun _ => ⟨rfl, rfl⟩⟩
    unfold Net.received at hx
    split at hx <;> exact hx
  | call l₁ l₂ q o os e h' outs ps hb ht hpo hu hi hps =>
    have hq : q ∈ n.busy := by rw [hb]; simp
    refine ⟨fun x hx => ?_, fun hno => ?_⟩
    · rcases List.mem_append.mp hx with hx | hx
      · exact Or.inl hx
      · right
        obtain ⟨h1, _, _, u, hu, hbu⟩ := copies_response hi hps x hx
        refine ⟨⟨u.esvByte, by rw [hbu, bytes_esv], ?_⟩, q, hq, rfl, h1⟩
        rcases (invoke_txs hi).2 with ⟨h2, _⟩ | ⟨u', _, h2, _, h4, _⟩
        · rw [h2] at hu; simp at hu
        · rw [h2] at hu
          simp only [List.mem_cons, List.not_mem_nil, or_false] at hu
          rw [hu]; exact h4
    · rcases (invoke_txs hi).2 with h2 | ⟨u', _, _, h3, _⟩
      · exact h2
      · rw [hno q hq] at h3; simp at h3
  | die l₁ l₂ q o os e hb ht hpo hu hi => exact ⟨fun x hx => Or.inl hx, fun _ => ⟨rfl, rfl⟩⟩
  | crash l₁ l₂ q o os h' hb ht hpo hw ha => exact ⟨fun x hx => Or.inl hx, fun _ => ⟨rfl, rfl⟩⟩
  | infected l₁ l₂ q o os hb ht hpo => exact ⟨fun x hx => Or.inl hx, fun _ => ⟨rfl, rfl⟩⟩
  | skip l₁ l₂ q o os hb ht hpo hm => exact ⟨fun x hx => Or.inl hx, fun _ => ⟨rfl, rfl⟩⟩
  | done l₁ l₂ q hb ht => exact ⟨fun x hx => Or.inl hx, fun _ => ⟨rfl, rfl⟩⟩

/-! ### How many replies -/

/-- The observers of the `i`-th receiver thread. -/
def obsAt (h : Host S) (i : Nat) : Option (List ObserverRef) := (h.threads[i]?).map (fun s => s.observers)

/-- What a datagram can still lead to. -/
def owedP (n : Net S) (p : Packet) : Nat :=
  if isRequestDatagram p.bytes then ((obsAt (n.hosts p.host) p.srv).getD []).count .node else 0

/-- What a busy thread can still lead to. -/
def owedB (q : Busy) : Nat := if isRequestByte q.msg.esvByte then q.todo.count .node else 0

theorem owed_eq (n : Net S) : owed n = (n.flying.map (owedP n)).sum + (n.busy.map owedB).sum := by
  unfold owed
  congr 1
  · generalize n.flying = l
    induction l with
    | nil => rfl
    | cons p l ih =>
      rw [List.filter_cons, List.map_cons, List.sum_cons, ← ih]
      unfold owedP obsAt
      split
      · rw [List.map_cons, List.sum_cons]
        congr 1
        cases (n.hosts p.host).threads[p.srv]? <;> rfl
      · simp
  · generalize n.busy = l
    induction l with
    | nil => rfl
    | cons q l ih =>
      rw [List.filter_cons, List.map_cons, List.sum_cons, ← ih]
      unfold owedB
      split
      · rw [List.map_cons, List.sum_cons]
      · simp

theorem owedP_congr {n n' : Net S} (h : ∀ j i, obsAt (n'.hosts j) i = obsAt (n.hosts j) i) : owedP n' = owedP n := by
  funext p; unfold owedP; rw [h]

/-- A panic of the application's code leaves the host as it is, but for the application's own state. -/
theorem Host.AppPanics.same {h h' : Host S} {msg : Message} {o : ObserverRef} (ha : h.AppPanics msg o h') :
    ∃ s l, h' = { h with node := { h.node with app := s }, seen := l } := by
  cases ha with
  | handler dst s hd hr hv => exact ⟨s, h.seen, rfl⟩
  | observer k => exact ⟨h.node.app, _, rfl⟩

theorem Host.AppPanics.transport {h h' : Host S} {msg : Message} {o : ObserverRef} (ha : h.AppPanics msg o h') :
    h'.node.transport = h.node.transport := by
  obtain ⟨s, l, rfl⟩ := ha.same; rfl

theorem obsAt_kill (h : Host S) (k i : Nat) : obsAt (h.killThread k) i = obsAt h i := by
  unfold obsAt Host.threads Host.killThread
  simp only []
  have hm : ∀ (l : List Server) (k : Nat), (l.modify k (fun s => { s with thread := .panicked })).map (fun s => s.observers) =
      l.map (fun s => s.observers) := by
    intro l k
    induction l generalizing k with
    | nil => simp
    | cons s l ih =>
      cases k with
      | zero => simp
      | succ k => simp [ih]
  rw [← List.getElem?_map, ← List.getElem?_map, List.map_append, List.map_append, hm]
  split
  · rfl
  · rw [hm]

theorem obsAt_set {n : Net S} {j : Nat} {h' : Host S} (h : ∀ i, obsAt h' i = obsAt (n.hosts j) i) (k i : Nat) :
    obsAt ((n.setHost j h').hosts k) i = obsAt (n.hosts k) i := by
  unfold Net.setHost
  simp only []
  split
  · rename_i hk; subst hk; exact h i
  · rfl

theorem obsAt_transport {h h' : Host S} (ht : h'.node.transport = h.node.transport) (i : Nat) : obsAt h' i = obsAt h i := by
  unfold obsAt Host.threads; rw [ht]

/-- Every internal step keeps what is owed, minus the replies it makes. -/
theorem internal_owed {b : Build} {db : Database} {n n' : Net S} {i : Nat} {outs : List Out}
    (h : Net.Internal b db n i outs n') : owed n' + (replies outs).length ≤ owed n := by
  rw [owed_eq, owed_eq]
  cases h with
  | lose l₁ l₂ p hf =>
    rw [show owedP ({ n with flying := l₁ ++ l₂ } : Net S) = owedP n from rfl, hf]
    simp only [List.map_append, List.map_cons, List.sum_append, List.sum_cons]
    have : (replies []).length = 0 := rfl
    omega
  | receive l₁ l₂ p s hf hs hr hidle =>
    have h0 : (replies []).length = 0 := rfl
    rw [h0]
    rcases recvOne p.bytes p.src with ⟨m, e, h, _, _, h10⟩ | h | h
    · have : n.received p s (l₁ ++ l₂) = { n with flying := l₁ ++ l₂, busy := n.busy ++ [⟨p.host, p.srv, m, s.observers⟩] } := by
        unfold Net.received; rw [h]
      rw [this]
      have hP : owedP ({ n with flying := l₁ ++ l₂, busy := n.busy ++ [⟨p.host, p.srv, m, s.observers⟩] } : Net S) = owedP n := rfl
      rw [hP, hf]
      have hpq : owedB ⟨p.host, p.srv, m, s.observers⟩ = owedP n p := by
        unfold owedB owedP isRequestDatagram obsAt
        rw [h10, hs]; rfl
      simp only [List.map_append, List.map_cons, List.sum_append, List.sum_cons, List.map_nil, List.sum_nil, hpq]
      omega
    · have hn : n.received p s (l₁ ++ l₂) = { n.setHost p.host ((n.hosts p.host).killThread p.srv) with flying := l₁ ++ l₂ } := by
        unfold Net.received; rw [h]
      rw [hn]
      rw [owedP_congr (n := n) (by intro j i; exact obsAt_set (fun i => obsAt_kill _ _ i) j i), hf]
      simp only [List.map_append, List.map_cons, List.sum_append, List.sum_cons, Net.setHost]
      omega
    · have hn : n.received p s (l₁ ++ l₂) = { n with flying := l₁ ++ l₂ } := by
        unfold Net.received; rw [h]
      rw [hn, show owedP ({ n with flying := l₁ ++ l₂ } : Net S) = owedP n from rfl, hf]
      simp only [List.map_append, List.map_cons, List.sum_append, List.sum_cons]
      omega
  | call l₁ l₂ q o os e h' outs ps hb ht hpo hu hi hps =>
    have hiv := invoke_txs hi
    rw [owedP_congr (n := n) (by intro j i; exact obsAt_set (fun i => obsAt_transport hiv.1 i) j i), hb]
    have hps0 : (ps.map (owedP n)).sum = 0 := by
      have hc := copies_response hi hps
      clear hps
      induction ps with
      | nil => rfl
      | cons p ps ih =>
        rw [List.map_cons, List.sum_cons, ih (fun x hx => hc x (by simp [hx]))]
        unfold owedP; rw [(hc p (by simp)).2.2.1]; simp
    have hq : owedB { q with todo := os } + (replies outs).length ≤ owedB q := by
      unfold owedB
      simp only [ht]
      rcases hiv.2 with ⟨h2, _⟩ | ⟨u, ho, h2, h3, _⟩
      · rw [h2]
        split
        · rw [List.count_cons]; simp
        · simp
      · rw [h2, h3, ho]
        simp
    simp only [List.map_append, List.map_cons, List.sum_append, List.sum_cons, hps0]
    omega
  | die l₁ l₂ q o os e hb ht hpo hu hi =>
    rw [owedP_congr (n := n) (by intro j i; exact obsAt_set (fun i => obsAt_kill _ _ i) j i), hb]
    have h0 : (replies []).length = 0 := rfl
    simp only [List.map_append, List.map_cons, List.sum_append, List.sum_cons, Net.setHost, Net.poison]
    omega
  | crash l₁ l₂ q o os h' hb ht hpo hw ha =>
    rw [owedP_congr (n := n) (by
      intro j i
      exact obsAt_set (fun i => (obsAt_kill _ _ i).trans (by unfold obsAt Host.threads; rw [ha.transport])) j i), hb]
    have h0 : (replies []).length = 0 := rfl
    simp only [List.map_append, List.map_cons, List.sum_append, List.sum_cons, Net.setHost, Net.poison]
    omega
  | infected l₁ l₂ q o os hb ht hpo =>
    rw [owedP_congr (n := n) (by intro j i; exact obsAt_set (fun i => obsAt_kill _ _ i) j i), hb]
    have h0 : (replies []).length = 0 := rfl
    simp only [List.map_append, List.map_cons, List.sum_append, List.sum_cons, Net.setHost]
    omega
  | skip l₁ l₂ q o os hb ht hpo hm =>
    rw [show owedP ({ n with busy := l₁ ++ { q with todo := os } :: l₂ } : Net S) = owedP n from rfl, hb]
    have h0 : (replies []).length = 0 := rfl
    have hq : owedB { q with todo := os } ≤ owedB q := by
      unfold owedB
      simp only [ht]
      split
      · rw [List.count_cons]; omega
      · omega
    simp only [List.map_append, List.map_cons, List.sum_append, List.sum_cons]
    omega
  | done l₁ l₂ q hb ht =>
    rw [show owedP ({ n with busy := l₁ ++ l₂ } : Net S) = owedP n from rfl, hb]
    have h0 : (replies []).length = 0 := rfl
    simp only [List.map_append, List.map_cons, List.sum_append, List.sum_cons]
    omega

theorem untag (i : Nat) (l : List Out) : (l.map (fun o => (i, o))).map (fun x => x.2) = l := by
  induction l with
  | nil => rfl
  | cons o l ih => rw [List.map_cons, List.map_cons, ih]

/-- C72: the number of replies of a whole execution is bounded by the requests under way at its beginning: at most one
for every time a receiving server calls its node for a request. Losing, delaying or reordering datagrams never increases
it; replies themselves never count. -/
theorem C72_replies_bounded {b : Build} {db : Database} {n n' : Net S} {outs : List (Nat × Out)}
    (h : Unattended b db n outs n') : (replies (outs.map (fun x => x.2))).length + owed n' ≤ owed n := by
  induction h with
  | refl n => show 0 + _ ≤ _; omega
  | step h h' ih =>
    have := internal_owed h
    simp only [List.map_append, untag]
    unfold replies at ih this ⊢
    rw [handed_append, List.map_append, List.length_append]
    omega

/-- A network with the example node as host 0 (and everywhere else) and a read of its property 0x80 on the way to its
unicast server. -/
def exNet (n : Node Unit) : Net Unit :=
  ⟨fun _ => Host.ofNode n,
   [⟨⟨.v4 0xC0A80009, 3610⟩, 0, 0, ((exRequest .ReadRequest 7).addProperty ⟨0x80, []⟩).bytes⟩], [], fun _ _ => false, fun _ => false⟩

/-- One request served: the thread takes the datagram and calls the node. -/
theorem quiet_one {b : Build} {db : Database} {x : Net S} {p : Packet} {s : Server} {m : Message} {en : LoopEnd}
    {n' : Node S} {outs : List Out} {t : Tx} {ω : HashOrder} {ok : Nat → Bool} (hf : x.flying = [p]) (hb : x.busy = [])
    (hpo : x.poisoned p.host .node = false)
    (hs : (x.hosts p.host).threads[p.srv]? = some s) (hr : s.thread = .running) (ho : s.observers = [.node])
    (hm : recvLoop [.datagram p.bytes p.src] = ([m], en))
    (hobs : (x.hosts p.host).node.observe b ω ok m = .ok (n', outs)) (ht : Out.tx t ∈ outs) :
    ∃ x', Unattended b db x (outs.map (fun o => (p.host, o))) x' ∧ x'.busy = [⟨p.host, p.srv, m, []⟩] ∧
      x'.flying = [⟨⟨t.iface, 3610⟩, 0, 0, t.bytes⟩] := by
  have h1 := Net.Internal.receive (b := b) (db := db) (n := x) [] [] p s (by rw [hf]; rfl) hs hr (by rw [hb]; simp)
  have hx : x.received p s ([] ++ []) = { x with flying := [], busy := [⟨p.host, p.srv, m, [.node]⟩] } := by
    unfold Net.received; rw [hm]; simp only [hb, ho, List.nil_append]
  rw [hx] at h1
  have h2 := Net.Internal.call (b := b) (db := db)
    (n := ({ x with flying := [], busy := [⟨p.host, p.srv, m, [.node]⟩] } : Net S)) [] []
    ⟨p.host, p.srv, m, [.node]⟩ .node [] ⟨true, true, ω, fun _ => List.replicate 16 0, ok⟩ { x.hosts p.host with node := n' } outs
    [⟨⟨t.iface, 3610⟩, 0, 0, t.bytes⟩] rfl rfl hpo (fun _ => rfl) (by
      simp only [Host.invoke, Node.observeTry, Bool.not_true, Bool.false_eq_true, if_false, hobs, Res.bind_ok, Res.pure_eq])
    (by intro p' hp'
        simp only [List.mem_cons, List.not_mem_nil, or_false] at hp'
        subst hp'; exact ⟨t, ht, rfl, rfl⟩)
  have hq := Unattended.step h1 (Unattended.step h2 (Unattended.refl _))
  simp only [List.map_nil, List.nil_append, List.append_nil] at hq
  exact ⟨_, hq, rfl, rfl⟩

/-- Non-vacuity of C72: in the example network one reply is owed, and there is an execution in which it is made, and
transmitted. -/
example (db : Database) : ∃ n, exNode [acceptAll] = .ok n ∧ owed (exNet n) = 1 ∧
    ∃ outs x', Unattended .dev db (exNet n) outs x' ∧ (replies (outs.map (fun x => x.2))).length = 1 ∧
      x'.flying.length = 1 := by
  obtain ⟨n, hn, ho, hs, n', outs, hobs, ht, hrep⟩ : ∃ n, exNode [acceptAll] = .ok n ∧ owed (exNet n) = 1 ∧
      ((exNet n).hosts 0).threads[0]? = some ⟨.v4 0xC0A80002, [.node], .running⟩ ∧
      ∃ n' outs, n.observe .dev .ascending allOk
          (((exRequest .ReadRequest 7).addProperty ⟨0x80, []⟩).setFrom ⟨.v4 0xC0A80009, 3610⟩) = .ok (n', outs) ∧
        Out.tx ⟨.v4 0xC0A80002, ⟨.v4 0xC0A80009, 3610⟩,
          [0x10, 0x81, 0, 7, 0x02, 0x90, 0x01, 0x05, 0xFF, 0x01, 0x72, 1, 0x80, 1, 0x30]⟩ ∈ outs ∧
        (replies outs).length = 1 := by
    refine ⟨_, rfl, by decide +kernel, rfl, _, _, rfl, by decide +kernel, by decide +kernel⟩
  obtain ⟨x', h1, h2, h3⟩ := quiet_one (b := .dev) (db := db) (x := exNet n) (ω := .ascending) (ok := allOk) (en := .running)
    rfl rfl rfl hs rfl rfl (by decide +kernel) hobs ht
  refine ⟨n, hn, ho, _, x', h1, ?_, by rw [h3]; rfl⟩
  rw [← hrep]
  rw [untag]

end Uecho
