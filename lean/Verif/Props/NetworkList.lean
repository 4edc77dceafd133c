import Verif.Props.Network
import Verif.Props.Discovery
import Verif.Props.Observers
import Verif.Props.Device
/-!
# What controllers believe: C73, C74
-/
namespace Uecho
open Spec
variable {S : Type}

/-! ## Decoding -/

/-- A datagram with the bytes of a message within the limits decodes, if at all, to that message. -/
theorem decode_faithful {u m : Message} {src : SocketAddr} {e : LoopEnd} (hz : SizesOk u) (h5 : u.esvByte ≠ 0x5E)
    (h : recvLoop [.datagram u.bytes src] = ([m], e)) : m.sender = src ∧ m.esvByte = u.esvByte ∧ m.deoj = u.deoj ∧
      m.seoj = u.seoj ∧ m.tid = u.tid ∧ (isWriteReadByte u.esvByte = false → m.properties = u.properties) := by
  rcases recvOne u.bytes src with ⟨m', e', h1, hp, hs, h10⟩ | h1 | h1
  · rw [h] at h1
    simp only [Prod.mk.injEq, List.cons.injEq, and_true] at h1
    obtain ⟨rfl, rfl⟩ := h1
    refine ⟨hs, ?_⟩
    obtain ⟨f, rest, hv, hd, hf1, hf⟩ := Message.parse_sound _ _ _ hp
    have hbytes : u.bytes = f.encode ++ (rest ++ u.bytes.drop maxPacketSize) := by
      rw [← List.append_assoc, ← hd, List.take_append_drop]
    have hfmt : u.isFormat1 = true := by
      obtain ⟨t, ht⟩ := bytes_header u
      have h0 : u.bytes[0]? = some u.ehd.1 ∧ u.bytes[1]? = some u.ehd.2 := by
        rw [ht]; exact ⟨rfl, rfl⟩
      have h1 : u.bytes[0]? = some 0x10 ∧ u.bytes[1]? = some 0x81 := by
        rw [hbytes]; exact ⟨rfl, rfl⟩
      rw [h1.1, h1.2] at h0
      simp only [Option.some.injEq] at h0
      unfold Message.isFormat1
      rw [← h0.1, ← h0.2]; rfl
    have hc := Message.parse_complete Message.new (frameOf u) [] (frameOf_valid u hz)
    have hc' := Message.parse_complete Message.new f (rest ++ u.bytes.drop maxPacketSize) hv
    rw [List.append_nil, ← Message.bytes_eq_encode u hfmt h5] at hc
    rw [← hbytes] at hc'
    obtain ⟨m₁, p1, _, a1, a2, a3, a4, _, a5⟩ := hc
    obtain ⟨m₂, p2, _, b1, b2, b3, b4, _, b5⟩ := hc'
    rw [p1] at p2
    simp only [Res.ok.injEq, Prod.mk.injEq, true_and] at p2
    subst p2
    obtain ⟨c1, c2, c3, c4, _, c5⟩ := hf
    have e4 : m.esvByte = u.esvByte := by
      have : m.esvByte = f.esv := c4
      rw [this, ← b4, a4]; rfl
    refine ⟨e4, UInt32.toNat.inj (by
      have : m.deoj.toNat = f.deoj := c3
      rw [this, ← b3, a3]; rfl), UInt32.toNat.inj (by
      have : m.seoj.toNat = f.seoj := c2
      rw [this, ← b2, a2]; rfl), UInt16.toNat.inj (by
      have : m.tid.toNat = f.tid := c1
      rw [this, ← b1, a1]; rfl), fun hw => ?_⟩
    have hw1 : (frameOf u).body = .single u.properties := by unfold frameOf; simp [hw]
    rw [hw1] at a5
    obtain ⟨_, _, _, hvb⟩ := hv
    cases hb : f.body with
    | single ps =>
      rw [hb] at b5 c5
      have c5' : m.properties = [] ++ ps := c5.1
      rw [c5']; exact (a5.1.symm.trans b5.1).symm
    | setGet s g =>
      rw [hb] at hvb
      rw [← b4, a4] at hvb
      rw [show (frameOf u).esv = u.esvByte from rfl, hw] at hvb
      simp at hvb
  · rw [h] at h1; simp at h1
  · rw [h] at h1; simp at h1

/-! ## Truthfulness -/

theorem truthful_mono {n n' : Node S} {m : Message} (h : Truthful n m) (hc : ∀ c ∈ codesOf n, c ∈ codesOf n') :
    Truthful n' m := ⟨fun hp c h' => hc c (h.1 hp c h'), h.2⟩

/-- Only service, destination and properties matter. -/
theorem truthful_congr {n : Node S} {m m' : Message} (h : Truthful n m) (h1 : m'.esvByte = m.esvByte)
    (h2 : m'.deoj = m.deoj) (h3 : isWriteReadByte m.esvByte = false → m'.properties = m.properties) :
    Truthful n m' := by
  have key : ∀ e : UInt8, e = 0x72 ∨ e = 0x73 ∨ e = 0x62 ∨ e = 0x63 → isWriteReadByte e = false := by decide +kernel
  constructor
  · intro hp
    have hp' : IsProfileMessage m := by unfold IsProfileMessage at hp ⊢; rw [← h1, ← h2]; exact hp
    have := h.1 hp'
    unfold announcedCodes at this ⊢
    rw [h3 (key _ (by rcases hp'.1 with h | h <;> simp [h]))]
    exact this
  · intro he hd
    rw [h1] at he
    rw [h2] at hd
    rw [h3 (key _ (by rcases he with h | h <;> simp [h]))]
    exact h.2 he hd

theorem truthful_updateTid {n k : Node S} {m : Message} (h : Truthful n m) : Truthful n (k.updateTid m).1 := by
  obtain ⟨_, h1, h2, h3, _⟩ := updateTid_fields k m
  exact truthful_congr h h2 h1 (fun _ => h3)

/-! ## What an operation sends -/

/-- An operation that ends in `n'` sends nothing, or one truthful message through servers of the node. -/
def Sends (n' : Node S) (outs : List Out) : Prop :=
  (replies outs = [] ∧ txs outs = []) ∨
  ∃ u, replies outs = [u] ∧ Truthful n' u ∧
    ∀ t ∈ txs outs, t.bytes = u.bytes ∧ ∃ s ∈ n'.transport.ucast ++ n'.transport.mcast, t.iface = s.ifaddr

theorem codesOf_objects {n n' : Node S} (h : n'.objects = n.objects) : codesOf n' = codesOf n := by
  unfold codesOf; rw [h]

theorem sends_unicast {n n' : Node S} {msg : Message} (ok : Nat → Bool) (to : SocketAddr) (hm : Truthful n msg)
    (ho : n'.objects = n.objects) (ht : n'.transport = n.transport) (k : Node S) :
    Sends n' (.handed msg (k.updateTid msg).1 :: ((n.transport.send ok to (k.updateTid msg).1).2).map .tx) := by
  refine Or.inr ⟨(k.updateTid msg).1, replies_handed _ _ _, ?_, ?_⟩
  · exact truthful_mono (truthful_updateTid hm) (by rw [codesOf_objects ho]; exact fun _ h => h)
  · rw [txs_handed_cons, ht]
    intro t h
    refine ⟨send_bytes _ _ _ _ t h, ?_⟩
    rcases Manager.send_cases ok n.transport to (k.updateTid msg).1 with ⟨_, h0⟩ | ⟨_, s, hs, h0⟩
    · rw [h0] at h; simp at h
    · rw [h0] at h
      simp only [List.mem_cons, List.not_mem_nil, or_false] at h
      subst h
      exact ⟨s, by simp [hs], rfl⟩

theorem sends_multicast {n n' : Node S} {msg : Message} (ok : Nat → Bool) (hm : Truthful n msg)
    (ho : n'.objects = n.objects) (ht : n'.transport = n.transport) (k : Node S) :
    Sends n' (.handed msg (k.updateTid msg).1 :: ((n.transport.notify ok (k.updateTid msg).1).2).map .tx) := by
  refine Or.inr ⟨(k.updateTid msg).1, replies_handed _ _ _, ?_, ?_⟩
  · exact truthful_mono (truthful_updateTid hm) (by rw [codesOf_objects ho]; exact fun _ h => h)
  · rw [txs_handed_cons, ht]
    intro t h
    refine ⟨notify_bytes _ _ _ t h, ?_⟩
    obtain ⟨j, h0, _⟩ := Manager.notify_cases ok n.transport (k.updateTid msg).1
    rw [h0] at h
    obtain ⟨s, hs, rfl⟩ := List.mem_map.mp h
    exact ⟨s, by simp [List.mem_of_mem_take hs], rfl⟩

theorem sends_nothing (n' : Node S) : Sends n' [] := Or.inl ⟨rfl, rfl⟩

/-- Announcing the instance list notification (0xD5) lists nothing a controller reads. -/
theorem announce_truthful {n : Node S} {np : Object} {p : Property} (hk : p.code = 0xD5) :
    Truthful n (Node.announceMessage np p) := by
  constructor
  · intro _ c hc
    unfold announcedCodes at hc
    obtain ⟨w, hw, hc⟩ := List.mem_flatMap.mp hc
    have hw' : w = p.toWire := by
      simpa [Node.announceMessage, Message.addProperty, Message.setSeoj, Message.setDeoj, Message.setEsv, Message.new] using hw
    subst hw'
    unfold listedCodes at hc
    split at hc
    · simp at hc
    · rw [if_neg (by rintro ⟨h, _⟩; have : p.code = 0xD6 := h; rw [hk] at this; simp at this)] at hc
      simp at hc
  · intro h
    have : (Node.announceMessage np p).esvByte = 0x73 := rfl
    rw [this] at h
    simp at h

theorem sends_announce {n : Node S} (hk : ∀ o ∈ n.objects, KeysOk o) (ok : Nat → Bool) :
    Sends (n.announce ok).2.1 (n.announce ok).2.2 := by
  unfold Node.announce
  split
  · exact sends_nothing _
  · rename_i np hnp
    split
    · exact sends_nothing _
    · rename_i p hp
      obtain ⟨pre, post, h1, _, _⟩ := findObject_split hnp
      have hpc : p.code = 0xD5 := hk np (by rw [h1]; simp) 0xD5 p hp
      have := sends_multicast (n := n) (n' := (n.updateTid (Node.announceMessage np p)).2)
        ok (announce_truthful (np := np) hpc) (updateTid_same n _).1 (Node.updateTid_transport _ _) n
      simp only [Node.notify]
      rw [Node.updateTid_transport]
      exact this

/-- The answer of a node is truthful. -/
theorem sends_observe {b : Build} {ω : HashOrder} {ok : Nat → Bool} {n n' k : Node S} {msg : Message} {outs : List Out}
    (hi : ProfileInv n) (hm : Truthful k msg) (h : n.observe b ω ok msg = .ok (n', outs)) : Sends n' outs := by
  rcases observe_txs h with ⟨h1, h2⟩ | ⟨u, h1, h2, h3, h4⟩
  · exact Or.inl ⟨by unfold replies; rw [h1]; rfl, h2⟩
  obtain ⟨_, _, _, htr, svc, hhead, _, hcase⟩ := Node.reply_cases hi.keys h (u := u) (by rw [h1]; simp)
  refine Or.inr ⟨u, h1, ⟨?_, ?_⟩, ?_⟩
  · intro hp c hc
    have hsvc : svc = 0x72 ∨ svc = 0x73 := by rw [← hhead.esv]; exact hp.1
    rcases hcase with ⟨he, _⟩ | ⟨hs, pre, dst, post, dst', ht, _, hobj, hkd, hcd, _, hprop, _⟩
    · exfalso
      have : ∀ e : UInt8, errorByte e ≠ 0x72 ∧ errorByte e ≠ 0x73 := by decide +kernel
      rcases hsvc with rfl | rfl
      · exact (this _).1 he.symm
      · exact (this _).2 he.symm
    · have hreq : msg.esvByte = 0x62 ∨ msg.esvByte = 0x63 := by
        have : ∀ e s : UInt8, successByte e = some s → s = 0x72 ∨ s = 0x73 → e = 0x62 ∨ e = 0x63 := by
          intro e s
          unfold successByte
          repeat' split
          all_goals (intro h1 h2; simp at h1)
          all_goals (subst h1; revert h2)
          · intro h; simp at h
          · intro _; left; assumption
          · intro _; right; assumption
          · intro h; simp at h
          · intro h; simp at h
        exact this _ _ hs hsvc
      have hprops : u.properties = dataOf dst' msg.properties := by
        rw [hprop]
        unfold okMessage
        simp only []
        rw [if_neg (by rcases hreq with h | h <;> simp [h]), if_pos hreq]
      unfold announcedCodes at hc
      rw [hprops] at hc
      obtain ⟨w, hw, hc⟩ := List.mem_flatMap.mp hc
      unfold dataOf at hw
      obtain ⟨r, hr, rfl⟩ := List.mem_map.mp hw
      -- only 0xD6 lists anything
      have h6 : r.code = 0xD6 := by
        unfold listedCodes at hc
        split at hc
        · simp at hc
        · split at hc
          · rename_i hh; exact hh.1
          · simp at hc
      by_cases hd : msg.deoj = profileCode
      · obtain ⟨np, ds, ho, hcode, _, _⟩ := hi.shape
        obtain ⟨hinv', _⟩ := step_inv (op := .receive msg true ω ok) hi trivial (n' := n') (outs := outs) (by
          show n.observeTry b ω ok true msg = _
          unfold Node.observeTry; exact h)
        obtain ⟨np', ds', ho', hc', _, hdesc'⟩ := hinv'.shape
        have hpre : pre = [] := by
          cases pre with
          | nil => rfl
          | cons o pre =>
            have h' := ht.split
            rw [ho] at h'
            simp only [List.cons_append, List.cons.injEq] at h'
            exact absurd (hcode.trans hd.symm) (ht.first np (by rw [h'.1]; simp))
        subst hpre
        rw [List.nil_append] at hobj
        have hnp : dst' = np' := by rw [ho'] at hobj; simp only [List.cons.injEq] at hobj; exact hobj.1.symm
        subst hnp
        obtain ⟨p, hp1, hp2⟩ := hdesc' 0xD6 _ rfl
        rw [h6, hp1] at hc
        simp only [Option.map_some, Option.getD_some, hp2] at hc
        unfold listedCodes at hc
        simp only [true_and] at hc
        split at hc
        · rw [objectCodes_flatMap _ (by
            intro c hc
            unfold deviceCodes at hc
            obtain ⟨o, _, rfl⟩ := List.mem_map.mp (List.mem_filter.mp hc).1
            exact code_lt o)] at hc
          obtain ⟨x, hx, rfl⟩ := List.mem_map.mp hc
          unfold deviceCodes at hx
          obtain ⟨o, ho2, rfl⟩ := List.mem_map.mp (List.mem_filter.mp hx).1
          unfold codesOf
          exact List.mem_map.mpr ⟨o, ho2, rfl⟩
        · simp at hc
      · exact absurd h6 (hm.2 hreq hd r hr)
  · intro he
    have : ∀ e : UInt8, isResponseByte e = true → ¬ (e = 0x62 ∨ e = 0x63) := by decide +kernel
    exact absurd he (this _ h3)
  · intro t ht
    rw [htr]
    exact h4 t ht

/-! ## One operation -/

/-- The servers of a manager are bound to addresses of host `i`. -/
def Owned (own : IpAddr → Option Nat) (i : Nat) (m : Manager) : Prop :=
  ∀ s ∈ m.ucast ++ m.mcast, own s.ifaddr = some i

theorem owned_nil (own : IpAddr → Option Nat) (i : Nat) : Owned own i ⟨[], []⟩ := by intro s hs; simp at hs

theorem startMulticastLoop_owned {own : IpAddr → Option Nat} {i : Nat} {env : List IfOutcome} (he : ∀ e ∈ env, own e.addr = some i)
    {acc l : List Server} (ha : ∀ s ∈ acc, own s.ifaddr = some i) (h : startMulticastLoop env acc = .ok l) :
    ∀ s ∈ l, own s.ifaddr = some i := by
  induction env generalizing acc with
  | nil =>
    simp only [startMulticastLoop, Res.ok.injEq] at h
    subst h; exact ha
  | cons e env ih =>
    obtain ⟨r, hr, h⟩ := Res.bind_eq_ok.mp h
    refine ih (fun e he' => he e (by simp [he'])) ?_ h
    intro s hs
    split at hs
    · exact ha s hs
    · rcases List.mem_append.mp hs with hs | hs
      · exact ha s hs
      · rw [List.mem_singleton.mp hs]; exact he e (by simp)

theorem startUnicast_owned {own : IpAddr → Option Nat} {i : Nat} {env : List IfOutcome} (he : ∀ e ∈ env, own e.addr = some i)
    {l : List Server} (ha : ∀ s ∈ l, own s.ifaddr = some i) : ∀ s ∈ (startUnicast env l).2, own s.ifaddr = some i := by
  unfold startUnicast
  split
  · exact ha
  · simp only []
    rename_i hne
    clear hne
    induction env generalizing l with
    | nil => exact ha
    | cons e env ih =>
      rw [List.foldl_cons]
      refine ih (fun e he' => he e (by simp [he'])) ?_
      intro s hs
      split at hs
      · exact ha s hs
      · rcases List.mem_append.mp hs with hs | hs
        · exact ha s hs
        · rw [List.mem_singleton.mp hs]; exact he e (by simp)

theorem start_owned {own : IpAddr → Option Nat} {i : Nat} {menv uenv : List IfOutcome}
    (he : ∀ e ∈ menv ++ uenv, own e.addr = some i) {m m' : Manager} {r : Bool} (hm : Owned own i m)
    (h : Node.startTransport menv uenv m = .ok (r, m')) : Owned own i m' := by
  unfold Node.startTransport at h
  split at h
  · unfold Manager.start at h
    split at h
    · simp only [Res.ok.injEq, Prod.mk.injEq] at h; rw [← h.2]; exact hm
    · obtain ⟨x, hx, h⟩ := Res.bind_eq_ok.mp h
      have hmc : ∀ s ∈ x.2, own s.ifaddr = some i := by
        unfold startMulticast at hx
        split at hx
        · simp only [Res.ok.injEq] at hx
          rw [← hx]; exact fun s hs => hm s (by simp [hs])
        · obtain ⟨l, hl, hx⟩ := Res.bind_eq_ok.mp hx
          simp only [Res.pure_eq, Res.ok.injEq] at hx
          rw [← hx]
          exact startMulticastLoop_owned (fun e h => he e (by simp [h])) (fun s hs => hm s (by simp [hs])) hl
      simp only [] at h
      have hstop : ∀ {m₁ : Manager}, Res.bind m₁.stop (fun s => pure (false, s.2)) = Res.ok (r, m') → Owned own i m' := by
        intro m₁ h
        obtain ⟨y, hy, h⟩ := Res.bind_eq_ok.mp h
        simp only [Res.pure_eq, Res.ok.injEq, Prod.mk.injEq] at h
        unfold Manager.stop at hy
        obtain ⟨_, _, hy⟩ := Res.bind_eq_ok.mp hy
        obtain ⟨_, _, hy⟩ := Res.bind_eq_ok.mp hy
        simp only [Res.pure_eq, Res.ok.injEq] at hy
        rw [← h.2, ← hy]; exact owned_nil _ _
      split at h
      · exact hstop h
      · split at h
        · exact hstop h
        · simp only [Res.pure_eq, Res.ok.injEq, Prod.mk.injEq] at h
          rw [← h.2]
          intro s hs
          rcases List.mem_append.mp hs with hs | hs
          · exact startUnicast_owned (fun e h => he e (by simp [h])) (fun s hs => hm s (by simp [hs])) s hs
          · exact hmc s hs
  · simp only [Res.ok.injEq, Prod.mk.injEq] at h; rw [← h.2]; exact hm

theorem addObservers_owned {own : IpAddr → Option Nat} {i : Nat} {m : Manager} (hm : Owned own i m) (l : List ObserverRef) :
    Owned own i (l.foldl Manager.addObserver m) := by
  rw [addObservers_eq]
  intro s hs
  rcases List.mem_append.mp hs with hs | hs
  · obtain ⟨x, hx, rfl⟩ := List.mem_map.mp hs
    exact hm x (by simp [hx])
  · obtain ⟨x, hx, rfl⟩ := List.mem_map.mp hs
    exact hm x (by simp [hx])

/-- A call on the node by an honest application. -/
theorem node_honest {own : IpAddr → Option Nat} {i : Nat} {b : Build} {n n' : Node S} {op : Op S} {outs : List Out}
    (hi : ProfileInv n) (how : Owned own i n.transport) (ha : Net.IsApi (.node op)) (hop : HonestOp own i n (.node op))
    (h : n.step b op = .ok (n', outs)) :
    ProfileInv n' ∧ Owned own i n'.transport ∧ (∀ c ∈ codesOf n, c ∈ codesOf n') ∧ Sends n' outs := by
  have hsafe : ProfileSafe op := by cases op <;> first | exact hop | trivial
  obtain ⟨hinv, hcodes⟩ := step_inv hi hsafe h
  have hmono : ∀ c ∈ codesOf n, c ∈ codesOf n' := by
    have e1 : codesOf n = (n.objects.map Object.code).map UInt32.toNat := by unfold codesOf; rw [List.map_map]; rfl
    have e2 : codesOf n' = (n'.objects.map Object.code).map UInt32.toNat := by unfold codesOf; rw [List.map_map]; rfl
    rw [e1, e2, hcodes, List.map_append]
    intro c hc; exact List.mem_append_left _ hc
  refine ⟨hinv, ?_, hmono, ?_⟩
  · -- transport
    cases op with
    | addObject o =>
      obtain ⟨r, hr, h⟩ := Res.bind_eq_ok.mp h
      simp only [Res.pure_eq, Res.ok.injEq, Prod.mk.injEq] at h
      rw [← h.1, addObject_frame hr]; exact how
    | addHandler _ => simp only [Node.step, Res.ok.injEq, Prod.mk.injEq] at h; rw [← h.1]; exact how
    | addObserver _ => simp only [Node.step, Res.ok.injEq, Prod.mk.injEq] at h; rw [← h.1]; exact how
    | send to msg ok =>
      simp only [Node.step, Node.sendMessage, Res.ok.injEq, Prod.mk.injEq] at h
      rw [← h.1, Node.updateTid_transport]; exact how
    | post to msg ok =>
      simp only [Node.step, Node.postMessage, Res.ok.injEq, Prod.mk.injEq] at h
      rw [← h.1]
      simp only [Node.updateTid_transport]; exact how
    | notify msg ok =>
      simp only [Node.step, Node.notify, Res.ok.injEq, Prod.mk.injEq] at h
      rw [← h.1, Node.updateTid_transport]; exact how
    | announceProperty obj prop ok =>
      simp only [Node.step, Node.announceProperty, Node.notify, Res.ok.injEq, Prod.mk.injEq] at h
      rw [← h.1, Node.updateTid_transport]; exact how
    | announce ok =>
      simp only [Node.step, Res.ok.injEq, Prod.mk.injEq] at h
      rw [← h.1, (announce_frame ok n).1]; exact how
    | start menv uenv ok =>
      obtain ⟨r, hr, h⟩ := Res.bind_eq_ok.mp h
      simp only [Res.pure_eq, Res.ok.injEq, Prod.mk.injEq] at h
      rw [← h.1]
      unfold Node.start at hr
      obtain ⟨x, hx, hr⟩ := Res.bind_eq_ok.mp hr
      have hx' : Owned own i x.2 := start_owned (r := x.1) hop how hx
      simp only [] at hr
      split at hr
      · simp only [Res.pure_eq, Res.ok.injEq] at hr
        rw [← hr]; exact hx'
      · have : r.2.1 = { ((({ n with transport := x.2 } : Node S).setObjectPropertiesByte 0x80 0x30).setObjectPropertiesByte 0x88 0x42)
            with transport := n.observers.foldl Manager.addObserver x.2, lastTid := r.2.1.lastTid } := by
          split at hr <;>
          · simp only [Res.pure_eq, Res.ok.injEq] at hr
            rw [← hr]
            simp only []
            rw [(announce_frame _ _).1]; rfl
        rw [this]
        exact addObservers_owned hx' _
    | stop =>
      obtain ⟨r, hr, h⟩ := Res.bind_eq_ok.mp h
      simp only [Res.pure_eq, Res.ok.injEq, Prod.mk.injEq] at h
      rw [← h.1]
      unfold Node.stop at hr
      obtain ⟨x, hx, hr⟩ := Res.bind_eq_ok.mp hr
      have hx' : x.2 = ⟨[], []⟩ := by
        unfold Manager.stop at hx
        obtain ⟨_, _, hx⟩ := Res.bind_eq_ok.mp hx
        obtain ⟨_, _, hx⟩ := Res.bind_eq_ok.mp hx
        simp only [Res.pure_eq, Res.ok.injEq] at hx
        rw [← hx]
      split at hr <;>
      · simp only [Res.pure_eq, Res.ok.injEq] at hr
        rw [← hr]; simp only [hx']; exact owned_nil _ _
    | setProperty oc c d =>
      simp only [Node.step, Res.ok.injEq, Prod.mk.injEq] at h
      rw [← h.1, setProperty_frame]; exact how
    | edit oc f => simp only [Node.step, Res.ok.injEq, Prod.mk.injEq] at h; rw [← h.1]; exact how
    | receive msg free ω ok => exact ha.elim
  · cases op with
    | addObject o =>
      obtain ⟨r, hr, h⟩ := Res.bind_eq_ok.mp h
      simp only [Res.pure_eq, Res.ok.injEq, Prod.mk.injEq] at h
      rw [← h.2]; exact sends_nothing _
    | addHandler _ => simp only [Node.step, Res.ok.injEq, Prod.mk.injEq] at h; rw [← h.2]; exact sends_nothing _
    | addObserver _ => simp only [Node.step, Res.ok.injEq, Prod.mk.injEq] at h; rw [← h.2]; exact sends_nothing _
    | send to msg ok =>
      simp only [Node.step, Node.sendMessage, Res.ok.injEq, Prod.mk.injEq] at h
      rw [← h.1, ← h.2, Node.updateTid_transport]
      exact sends_unicast ok to hop (Node.updateTid_objects _ _) (Node.updateTid_transport _ _) n
    | post to msg ok =>
      simp only [Node.step, Node.postMessage, Res.ok.injEq, Prod.mk.injEq] at h
      rw [← h.1, ← h.2, Node.updateTid_transport]
      refine sends_unicast (n := n) ok to hop ?_ ?_ n
      · exact Node.updateTid_objects n msg
      · rfl
    | notify msg ok =>
      simp only [Node.step, Node.notify, Res.ok.injEq, Prod.mk.injEq] at h
      rw [← h.1, ← h.2, Node.updateTid_transport]
      exact sends_multicast ok hop (Node.updateTid_objects _ _) (Node.updateTid_transport _ _) n
    | announceProperty obj prop ok =>
      simp only [Node.step, Node.announceProperty, Node.notify, Res.ok.injEq, Prod.mk.injEq] at h
      rw [← h.1, ← h.2, Node.updateTid_transport]
      exact sends_multicast ok hop (Node.updateTid_objects _ _) (Node.updateTid_transport _ _) n
    | announce ok =>
      simp only [Node.step, Res.ok.injEq, Prod.mk.injEq] at h
      rw [← h.1, ← h.2]
      exact sends_announce hi.keys ok
    | start menv uenv ok =>
      obtain ⟨r, hr, h⟩ := Res.bind_eq_ok.mp h
      simp only [Res.pure_eq, Res.ok.injEq, Prod.mk.injEq] at h
      rw [← h.1, ← h.2]
      unfold Node.start at hr
      obtain ⟨x, hx, hr⟩ := Res.bind_eq_ok.mp hr
      simp only [] at hr
      split at hr
      · simp only [Res.pure_eq, Res.ok.injEq] at hr
        rw [← hr]; exact sends_nothing _
      · have hk : ∀ o ∈ ({ ((({ n with transport := x.2 } : Node S).setObjectPropertiesByte 0x80 0x30).setObjectPropertiesByte 0x88 0x42)
            with transport := n.observers.foldl Manager.addObserver x.2 } : Node S).objects, KeysOk o := by
          intro o ho
          unfold Node.setObjectPropertiesByte at ho
          simp only [List.map_map] at ho
          obtain ⟨y, hy, rfl⟩ := List.mem_map.mp ho
          exact Object.setPropertyData_keysOk (Object.setPropertyData_keysOk (hi.keys y hy) _ _) _ _
        split at hr <;>
        · simp only [Res.pure_eq, Res.ok.injEq] at hr
          rw [← hr]
          exact sends_announce hk ok
    | stop =>
      obtain ⟨r, hr, h⟩ := Res.bind_eq_ok.mp h
      simp only [Res.pure_eq, Res.ok.injEq, Prod.mk.injEq] at h
      rw [← h.2]; exact sends_nothing _
    | setProperty oc c d =>
      simp only [Node.step, Res.ok.injEq, Prod.mk.injEq] at h
      rw [← h.2]; exact sends_nothing _
    | edit oc f => simp only [Node.step, Res.ok.injEq, Prod.mk.injEq] at h; rw [← h.2]; exact sends_nothing _
    | receive msg free ω ok => exact ha.elim

/-- A call on a host by an honest application is a call on its node, or nothing. -/
theorem host_honest {own : IpAddr → Option Nat} {i : Nat} {b : Build} {db : Database} {h h' : Host S} {op : HostOp S}
    {outs : List Out} (ha : Net.IsApi op) (hop : HonestOp own i h.node op) (hs : h.step b db op = .ok (h', outs)) :
    h'.remotes = h.remotes ∧ ((h'.node = h.node ∧ outs = []) ∨
      ∃ nop, Net.IsApi (.node nop) ∧ HonestOp own i h.node (.node nop) ∧ h.node.step b nop = .ok (h'.node, outs)) := by
  cases op with
  | call o e m => exact ha.elim
  | node op =>
    obtain ⟨r, hr, hs⟩ := Res.bind_eq_ok.mp hs
    simp only [Res.pure_eq, Res.ok.injEq, Prod.mk.injEq] at hs
    obtain ⟨rfl, rfl⟩ := hs
    exact ⟨rfl, Or.inr ⟨op, ha, hop, hr⟩⟩
  | search code ok =>
    simp only [Host.step, Res.ok.injEq] at hs
    have h1 : h' = (h.searchObject ok code).2.1 := by rw [hs]
    have h2 : outs = (h.searchObject ok code).2.2 := by rw [hs]
    subst h1 h2
    refine ⟨rfl, Or.inr ⟨.notify ((searchMessage.setSeoj nodeProfileCode).setDeoj code) ok, trivial, ?_, rfl⟩⟩
    have hc : code = profileCode := hop
    subst hc
    constructor
    · intro hp
      have : ¬ IsProfileMessage ((searchMessage.setSeoj nodeProfileCode).setDeoj profileCode) := by decide +kernel
      exact absurd hp this
    · intro _ hd
      exact absurd (by decide +kernel) hd
  | send r m free ok =>
    simp only [Host.step, Res.ok.injEq, Host.sendMessage] at hs
    cases free with
    | false =>
      simp only [Bool.not_false, if_true, Prod.mk.injEq] at hs
      obtain ⟨rfl, rfl⟩ := hs
      exact ⟨rfl, Or.inl ⟨rfl, rfl⟩⟩
    | true =>
      simp only [Bool.not_true, Bool.false_eq_true, if_false, Prod.mk.injEq] at hs
      obtain ⟨rfl, rfl⟩ := hs
      exact ⟨rfl, Or.inr ⟨.send ⟨r.addr.ip, port⟩ (m.setSeoj nodeProfileCode) ok, trivial,
        truthful_congr hop rfl rfl (fun _ => rfl), rfl⟩⟩
  | post r m ok =>
    simp only [Host.step, Res.ok.injEq, Host.postMessage, Prod.mk.injEq] at hs
    obtain ⟨rfl, rfl⟩ := hs
    exact ⟨rfl, Or.inr ⟨.post ⟨r.addr.ip, port⟩ (m.setSeoj nodeProfileCode) ok, trivial,
      truthful_congr hop rfl rfl (fun _ => rfl), rfl⟩⟩
  | start menv uenv ok =>
    obtain ⟨x, hx, hs⟩ := Res.bind_eq_ok.mp hs
    simp only [Res.pure_eq, Res.ok.injEq] at hs
    unfold Host.start at hx
    obtain ⟨r, hr, hx⟩ := Res.bind_eq_ok.mp hx
    have hx' : x.2 = ({ h with node := r.2.1 }, r.2.2) := by
      split at hx <;>
      · simp only [Res.pure_eq, Res.ok.injEq] at hx; rw [← hx]
    rw [hx'] at hs
    simp only [Prod.mk.injEq] at hs
    obtain ⟨rfl, rfl⟩ := hs
    refine ⟨rfl, Or.inr ⟨.start menv uenv ok, trivial, hop, ?_⟩⟩
    simp only [Node.step, hr, Res.bind_ok, Res.pure_eq]
  | stop =>
    obtain ⟨x, hx, hs⟩ := Res.bind_eq_ok.mp hs
    simp only [Res.pure_eq, Res.ok.injEq, Prod.mk.injEq] at hs
    unfold Host.stop at hx
    obtain ⟨r, hr, hx⟩ := Res.bind_eq_ok.mp hx
    have hx' : x.2 = { h with node := r.2 } := by
      split at hx <;>
      · simp only [Res.pure_eq, Res.ok.injEq] at hx; rw [← hx]
    rw [hx'] at hs
    obtain ⟨rfl, rfl⟩ := hs
    refine ⟨rfl, Or.inr ⟨.stop, trivial, trivial, ?_⟩⟩
    simp only [Node.step, hr, Res.bind_ok, Res.pure_eq]

/-! ## The invariant -/

/-- What a controller has noted is true. -/
def Believed (own : IpAddr → Option Nat) (n : Net S) (r : RemoteNode) : Prop :=
  (∀ o ∈ r.objects, StdObject o) ∧
  ∃ j, own r.addr.ip = some j ∧ ∀ c ∈ (entry r).2, c ∈ codesOf (n.hosts j).node

structure ListInv (own : IpAddr → Option Nat) (n : Net S) : Prop where
  hosts : ∀ i, ProfileInv (n.hosts i).node ∧ Owned own i (n.hosts i).node.transport
  remotes : ∀ i, ∀ r ∈ (n.hosts i).remotes, Believed own n r
  flying : ∀ p ∈ n.flying, ∃ j u, own p.src.ip = some j ∧ p.bytes = u.bytes ∧ SizesOk u ∧
    Truthful (n.hosts j).node u
  busy : ∀ q ∈ n.busy, ∃ j, own q.msg.sender.ip = some j ∧ Truthful (n.hosts j).node q.msg

theorem ListInv.update {own : IpAddr → Option Nat} {n : Net S} (hi : ListInv own n) {i : Nat} {h' : Host S}
    (hp : ProfileInv h'.node) (how : Owned own i h'.node.transport)
    (hmono : ∀ c ∈ codesOf (n.hosts i).node, c ∈ codesOf h'.node)
    (hrem : ∀ r ∈ h'.remotes, Believed own n r) {outs : List Out} (hs : Sends h'.node outs)
    (hz : ∀ u ∈ replies outs, SizesOk u) {ps fl : List Packet} (hps : Net.CopiesOf outs ps) (hfl : ∀ p ∈ fl, p ∈ n.flying)
    {bs : List Busy} (hbs : ∀ q ∈ bs, ∃ q' ∈ n.busy, q'.msg = q.msg) :
    ListInv own { n.setHost i h' with flying := fl ++ ps, busy := bs } := by
  have mono : ∀ j, ∀ c ∈ codesOf (n.hosts j).node, c ∈ codesOf ((n.setHost i h').hosts j).node := by
    intro j c hc
    unfold Net.setHost
    simp only []
    split
    · rename_i hj; subst hj; exact hmono c hc
    · exact hc
  have self : (n.setHost i h').hosts i = h' := by unfold Net.setHost; simp
  refine ⟨?_, ?_, ?_, ?_⟩
  · intro j
    show ProfileInv ((n.setHost i h').hosts j).node ∧ Owned own j ((n.setHost i h').hosts j).node.transport
    by_cases hj : j = i
    · subst hj; rw [self]; exact ⟨hp, how⟩
    · have : (n.setHost i h').hosts j = n.hosts j := by unfold Net.setHost; simp [hj]
      rw [this]; exact hi.hosts j
  · intro j r hr
    have hb : Believed own n r := by
      have hr' : r ∈ ((n.setHost i h').hosts j).remotes := hr
      by_cases hj : j = i
      · subst hj; rw [self] at hr'; exact hrem r hr'
      · have : (n.setHost i h').hosts j = n.hosts j := by unfold Net.setHost; simp [hj]
        rw [this] at hr'; exact hi.remotes j r hr'
    obtain ⟨h1, k, h2, h3⟩ := hb
    exact ⟨h1, k, h2, fun c hc => mono k c (h3 c hc)⟩
  · intro p hpf
    rcases List.mem_append.mp hpf with hpf | hpf
    · obtain ⟨j, u, h1, h2, h3, h4⟩ := hi.flying p (hfl p hpf)
      exact ⟨j, u, h1, h2, h3, truthful_mono h4 (mono j)⟩
    · obtain ⟨t, ht, h1, h2⟩ := hps p hpf
      have ht' := mem_txs.mp ht
      rcases hs with ⟨_, h0⟩ | ⟨u, hu, htr, htx⟩
      · rw [h0] at ht'; simp at ht'
      · obtain ⟨h3, s, hs, h4⟩ := htx t ht'
        refine ⟨i, u, by rw [h2, h4]; exact how s hs, by rw [h1, h3], hz u (by rw [hu]; simp), ?_⟩
        show Truthful ((n.setHost i h').hosts i).node u
        rw [self]; exact htr
  · intro q hq
    obtain ⟨q', hq', he⟩ := hbs q hq
    obtain ⟨j, h1, h2⟩ := hi.busy q' hq'
    rw [he] at h1 h2
    exact ⟨j, h1, truthful_mono h2 (mono j)⟩

theorem kill_owned {own : IpAddr → Option Nat} {i k : Nat} {h : Host S} (how : Owned own i h.node.transport) :
    Owned own i (h.killThread k).node.transport := by
  have key : ∀ (l : List Server) (k : Nat) (s : Server),
      s ∈ l.modify k (fun s => { s with thread := .panicked }) → ∃ s' ∈ l, s'.ifaddr = s.ifaddr := by
    intro l
    induction l with
    | nil => intro k s hs; simp at hs
    | cons x l ih =>
      intro k s hs
      cases k with
      | zero =>
        simp only [List.modify_zero_cons, List.mem_cons] at hs
        rcases hs with rfl | hs
        · exact ⟨x, by simp, rfl⟩
        · exact ⟨s, by simp [hs], rfl⟩
      | succ k =>
        simp only [List.modify_succ_cons, List.mem_cons] at hs
        rcases hs with rfl | hs
        · exact ⟨s, by simp, rfl⟩
        · obtain ⟨s', h1, h2⟩ := ih k s hs
          exact ⟨s', by simp [h1], h2⟩
  intro s hs
  unfold Host.killThread at hs
  simp only [] at hs
  rcases List.mem_append.mp hs with hs | hs
  · obtain ⟨s', h1, h2⟩ := key _ _ _ hs
    rw [← h2]; exact how s' (by simp [h1])
  · split at hs
    · exact how s (by simp [hs])
    · obtain ⟨s', h1, h2⟩ := key _ _ _ hs
      rw [← h2]; exact how s' (by simp [h1])

theorem listInv_internal {b : Build} {ω₀ : HashOrder} {db : Database} (hdb : standardDb b ω₀ = .ok db)
    {own : IpAddr → Option Nat} {n n' : Net S} {i : Nat} {outs : List Out} (hi : ListInv own n)
    (h : Net.Internal b db n i outs n') (hz : ∀ u ∈ replies outs, SizesOk u) : ListInv own n' := by
  have sub : ∀ {l₁ l₂ : List Packet} {p : Packet} (x : Packet), n.flying = l₁ ++ p :: l₂ → x ∈ l₁ ++ l₂ → x ∈ n.flying := by
    intro l₁ l₂ p x h1 h2
    rw [h1]
    rcases List.mem_append.mp h2 with h | h <;> simp [h]
  have subB : ∀ {l₁ l₂ : List Busy} {p : Busy} (x : Busy), n.busy = l₁ ++ p :: l₂ → x ∈ l₁ ++ l₂ → x ∈ n.busy := by
    intro l₁ l₂ p x h1 h2
    rw [h1]
    rcases List.mem_append.mp h2 with h | h <;> simp [h]
  have kill : ∀ (k j : Nat) (fl : List Packet) (bs : List Busy), (∀ p ∈ fl, p ∈ n.flying) → (∀ q ∈ bs, q ∈ n.busy) →
      ListInv own { n.setHost j ((n.hosts j).killThread k) with flying := fl, busy := bs } := by
    intro k j fl bs hfl hbs
    have := hi.update (i := j) (h' := (n.hosts j).killThread k) (outs := []) (ps := []) (fl := fl) (bs := bs)
      (inv_same_objects (n' := ((n.hosts j).killThread k).node) (hi.hosts j).1 rfl rfl).1 (kill_owned (hi.hosts j).2) (fun c hc => hc)
      (fun r hr => hi.remotes j r hr) (sends_nothing _) (by intro u hu; cases hu) (by intro p hp; simp at hp) hfl
      (fun q hq => ⟨q, hbs q hq, rfl⟩)
    rwa [List.append_nil] at this
  cases h with
  | lose l₁ l₂ p hf => exact ⟨hi.hosts, hi.remotes, fun x hx => hi.flying x (sub x hf hx), hi.busy⟩
  | receive l₁ l₂ p s hf hs hr hidle =>
    rcases recvOne p.bytes p.src with ⟨m, e, h, _⟩ | h | h
    · have hn : n.received p s (l₁ ++ l₂) = { n with flying := l₁ ++ l₂, busy := n.busy ++ [⟨p.host, p.srv, m, s.observers⟩] } := by
        unfold Net.received; rw [h]
      rw [hn]
      refine ⟨hi.hosts, hi.remotes, fun x hx => hi.flying x (sub x hf hx), ?_⟩
      intro q hq
      rcases List.mem_append.mp hq with hq | hq
      · exact hi.busy q hq
      · rw [List.mem_singleton.mp hq]
        obtain ⟨j, u, h1, h2, h3, h4⟩ := hi.flying p (by rw [hf]; simp)
        rw [h2] at h
        by_cases h5 : u.esvByte = 0x5E
        · rcases recvOne u.bytes p.src with ⟨m', e', h', _, hsnd, h10⟩ | h' | h'
          · rw [h] at h'
            simp only [Prod.mk.injEq, List.cons.injEq, and_true] at h'
            obtain ⟨rfl, _⟩ := h'
            rw [bytes_esv, h5] at h10
            simp only [Option.some.injEq] at h10
            refine ⟨j, by rw [hsnd]; exact h1, ?_, ?_⟩
            · intro hp
              have := hp.1
              rw [← h10] at this; simp at this
            · intro he
              rw [← h10] at he; simp at he
          · rw [h] at h'; simp at h'
          · rw [h] at h'; simp at h'
        · obtain ⟨d1, d2, d3, _, _, d4⟩ := decode_faithful h3 h5 h
          exact ⟨j, by rw [d1]; exact h1, truthful_congr h4 d2 d3 d4⟩
    · have hn : n.received p s (l₁ ++ l₂) = { n.setHost p.host ((n.hosts p.host).killThread p.srv) with flying := l₁ ++ l₂ } := by
        unfold Net.received; rw [h]
      rw [hn]
      exact kill p.srv p.host (l₁ ++ l₂) n.busy (fun x hx => sub x hf hx) (fun q hq => hq)
    · have hn : n.received p s (l₁ ++ l₂) = { n with flying := l₁ ++ l₂ } := by
        unfold Net.received; rw [h]
      rw [hn]
      exact ⟨hi.hosts, hi.remotes, fun x hx => hi.flying x (sub x hf hx), hi.busy⟩
  | call l₁ l₂ q o os e h' outs ps hb ht hpo hu hinv hps =>
    obtain ⟨j, hj, htq⟩ := hi.busy q (by rw [hb]; simp)
    have hbs : ∀ x ∈ l₁ ++ { q with todo := os } :: l₂, ∃ q' ∈ n.busy, q'.msg = x.msg := by
      intro x hx
      rcases List.mem_append.mp hx with hx | hx
      · exact ⟨x, subB x hb (by simp [hx]), rfl⟩
      · rcases List.mem_cons.mp hx with rfl | hx
        · exact ⟨q, by rw [hb]; simp, rfl⟩
        · exact ⟨x, subB x hb (by simp [hx]), rfl⟩
    obtain ⟨hp, how⟩ := hi.hosts q.host
    cases o with
    | node =>
      simp only [Host.invoke] at hinv
      obtain ⟨x, hx, hinv⟩ := Res.bind_eq_ok.mp hinv
      simp only [Res.pure_eq, Res.ok.injEq, Prod.mk.injEq] at hinv
      obtain ⟨rfl, rfl⟩ := hinv
      have hst : (n.hosts q.host).node.step b (.receive q.msg e.nodeFree e.ω e.ok) = .ok x := hx
      obtain ⟨hp', hc'⟩ := step_inv (op := .receive q.msg e.nodeFree e.ω e.ok) hp trivial hst
      have hc' : codesOf x.1 = codesOf (n.hosts q.host).node := by
        have e1 : ∀ k : Node S, codesOf k = (k.objects.map Object.code).map UInt32.toNat := by
          intro k; unfold codesOf; rw [List.map_map]; rfl
        rw [e1, e1, hc']; simp [addedCodes]
      have hs : Sends x.1 x.2 ∧ x.1.transport = (n.hosts q.host).node.transport := by
        unfold Node.observeTry at hx
        split at hx
        · simp only [Res.ok.injEq] at hx
          rw [← hx]; exact ⟨sends_nothing _, rfl⟩
        · exact ⟨sends_observe hp htq hx, (observe_frame hx).2.1⟩
      exact hi.update (i := q.host) (h' := { n.hosts q.host with node := x.1 }) hp'
        (show Owned own q.host x.1.transport by rw [hs.2]; exact how)
        (show ∀ c ∈ codesOf (n.hosts q.host).node, c ∈ codesOf x.1 by rw [hc']; exact fun c hc => hc)
        (fun r hr => hi.remotes q.host r hr) hs.1 hz hps (fun p hp => hp) hbs
    | controller =>
      simp only [Host.invoke] at hinv
      obtain ⟨x, hx, hinv⟩ := Res.bind_eq_ok.mp hinv
      simp only [Res.pure_eq, Res.ok.injEq, Prod.mk.injEq] at hinv
      obtain ⟨rfl, rfl⟩ := hinv
      refine hi.update (i := q.host) (h' := { n.hosts q.host with remotes := x }) hp how (fun c hc => hc) ?_ (sends_nothing _) hz hps (fun p hp => hp) hbs
      intro r hr
      have hr : r ∈ x := hr
      by_cases hc : e.ctrlFree = true ∧ IsProfileMessage q.msg
      · obtain ⟨r', h1, h2, h3⟩ := observeController_profile hdb e.ω e.uuid hu (n.hosts q.host).remotes hc.2
        rw [hc.1, h1] at hx
        simp only [Res.ok.injEq] at hx
        rw [← hx] at hr
        rcases replace_mem hr with hr | rfl
        · exact hi.remotes q.host r hr
        · refine ⟨h3, j, ?_, ?_⟩
          · have : r.addr = q.msg.sender := congrArg Prod.fst h2
            rw [this]; exact hj
          · rw [h2]
            intro c hc'
            rcases List.mem_append.mp hc' with hc' | hc'
            · exact htq.1 hc.2 c hc'
            · rw [List.mem_singleton.mp hc']
              obtain ⟨np, ds, ho, hcode, _⟩ := (hi.hosts j).1.shape
              unfold codesOf
              exact List.mem_map.mpr ⟨np, by rw [ho]; simp, by rw [hcode]; rfl⟩
      · rw [observeController_other b db e.ω e.uuid e.ctrlFree _ (by
          cases hf : e.ctrlFree with
          | false => exact Or.inl rfl
          | true => exact Or.inr (fun hm => hc ⟨hf, hm⟩))] at hx
        simp only [Res.ok.injEq] at hx
        rw [← hx] at hr
        exact hi.remotes q.host r hr
    | device =>
      simp only [Host.invoke, Res.ok.injEq, Prod.mk.injEq] at hinv
      obtain ⟨rfl, rfl⟩ := hinv
      exact hi.update (i := q.host) hp how (fun c hc => hc) (hi.remotes q.host) (sends_nothing _) hz hps (fun p hp => hp) hbs
    | user k =>
      simp only [Host.invoke, Res.ok.injEq, Prod.mk.injEq] at hinv
      obtain ⟨rfl, rfl⟩ := hinv
      exact hi.update (i := q.host) (h' := { n.hosts q.host with seen := (n.hosts q.host).seen ++ [(k, q.msg)] }) hp how (fun c hc => hc) (hi.remotes q.host) (sends_nothing _) hz hps (fun p hp => hp) hbs
  | die l₁ l₂ q o os e hb ht hpo hu hinv =>
    have h := kill q.srv q.host n.flying (l₁ ++ l₂) (fun p hp => hp) (fun x hx => subB x hb hx)
    exact ⟨h.hosts, h.remotes, h.flying, h.busy⟩
  | crash l₁ l₂ q o os h' hb ht hpo hw ha =>
    have h : ListInv own { n.setHost q.host (h'.killThread q.srv) with flying := n.flying, busy := l₁ ++ l₂ } := by
      obtain ⟨s, l, rfl⟩ := ha.same
      have := hi.update (i := q.host)
        (h' := ({ n.hosts q.host with node := { (n.hosts q.host).node with app := s }, seen := l } : Host S).killThread q.srv)
        (outs := []) (ps := []) (fl := n.flying) (bs := l₁ ++ l₂)
        (inv_same_objects (n' := (({ n.hosts q.host with node := { (n.hosts q.host).node with app := s }, seen := l } : Host S).killThread
          q.srv).node) (hi.hosts q.host).1 rfl rfl).1
        (kill_owned (h := { n.hosts q.host with node := { (n.hosts q.host).node with app := s }, seen := l }) (hi.hosts q.host).2)
        (fun c hc => hc)
        (fun r hr => hi.remotes q.host r hr) (sends_nothing _) (by intro u hu; cases hu) (by intro p hp; simp at hp)
        (fun p hp => hp) (fun x hx => ⟨x, subB x hb hx, rfl⟩)
      rwa [List.append_nil] at this
    exact ⟨h.hosts, h.remotes, h.flying, h.busy⟩
  | infected l₁ l₂ q o os hb ht hpo =>
    exact kill q.srv q.host n.flying (l₁ ++ l₂) (fun p hp => hp) (fun x hx => subB x hb hx)
  | skip l₁ l₂ q o os hb ht hpo hm =>
    refine ⟨hi.hosts, hi.remotes, hi.flying, fun x hx => ?_⟩
    simp only [List.mem_append, List.mem_cons] at hx
    rcases hx with hx | rfl | hx
    · exact hi.busy x (by rw [hb]; simp [hx])
    · exact hi.busy q (by rw [hb]; simp)
    · exact hi.busy x (by rw [hb]; simp [hx])
  | done l₁ l₂ q hb ht => exact ⟨hi.hosts, hi.remotes, hi.flying, fun x hx => hi.busy x (subB x hb hx)⟩

theorem listInv_api {b : Build} {db : Database} {own : IpAddr → Option Nat} {n n' : Net S} {i : Nat} {op : HostOp S}
    {outs : List Out} (hi : ListInv own n) (h : Net.Api b db n i op outs n') (hop : HonestOp own i (n.hosts i).node op)
    (hz : ∀ u ∈ replies outs, SizesOk u) : ListInv own n' := by
  cases h with
  | mk h' outs ps ha hs hps =>
    obtain ⟨hr, hcase⟩ := host_honest ha hop hs
    obtain ⟨hp, how⟩ := hi.hosts i
    rcases hcase with ⟨h1, rfl⟩ | ⟨nop, h1, h2, h3⟩
    · exact hi.update (bs := n.busy) (by rw [h1]; exact hp) (by rw [h1]; exact how) (by rw [h1]; exact fun c hc => hc)
        (by rw [hr]; exact hi.remotes i) (sends_nothing _) hz hps (fun p hp => hp) (fun q hq => ⟨q, hq, rfl⟩)
    · obtain ⟨h4, h5, h6, h7⟩ := node_honest hp how h1 h2 h3
      exact hi.update (bs := n.busy) h4 h5 h6 (by rw [hr]; exact hi.remotes i) h7 hz hps (fun p hp => hp) (fun q hq => ⟨q, hq, rfl⟩)

theorem listInv_fresh {b : Build} {ω₀ : HashOrder} {db : Database} (hdb : standardDb b ω₀ = .ok db)
    (own : IpAddr → Option Nat) {n : Net S} (h : Fresh b db n) : ListInv own n := by
  have key : ∀ i, ProfileInv (n.hosts i).node ∧ (n.hosts i).node.transport = Manager.new ∧ (n.hosts i).remotes = [] := by
    intro i
    obtain ⟨u₁, u₂, ω, app, nd, h1, h2, h3, h4⟩ := h.hosts i
    obtain ⟨nd', h5, h6, _, _, _, h7, _⟩ := newNode_inv hdb h1 h2 ω app
    rw [h3] at h5
    simp only [Res.ok.injEq] at h5
    subst h5
    rcases h4 with h4 | h4 <;> rw [h4]
    · exact ⟨h6, h7, rfl⟩
    · exact ⟨(inv_same_objects (n' := (Host.newController nd).node) h6 rfl rfl).1, h7, rfl⟩
  refine ⟨fun i => ⟨(key i).1, by rw [(key i).2.1]; exact owned_nil _ _⟩, ?_, ?_, ?_⟩
  · intro i r hr; rw [(key i).2.2] at hr; simp at hr
  · intro p hp; rw [h.flying] at hp; simp at hp
  · intro q hq; rw [h.busy] at hq; simp at hq

theorem honest_listInv {b : Build} {ω₀ : HashOrder} {db : Database} (hdb : standardDb b ω₀ = .ok db)
    {own : IpAddr → Option Nat} {n₀ n : Net S} (h₀ : Fresh b db n₀) (hx : Honest b db own n₀ n) : ListInv own n := by
  induction hx with
  | init => exact listInv_fresh hdb own h₀
  | internal _ hs hz ih => exact listInv_internal hdb ih hs hz
  | api _ hs hop hz ih => exact listInv_api ih hs hop hz

/-- C73: whatever the interleaving of applications, receiver threads and datagrams, and whatever is lost, delayed or
repeated: `Controller::nodes()` lists only nodes of the network, under an address of one of their interfaces, and only
objects that this node has. -/
theorem C73_listed_objects_exist_partial (b : Build) (ω₀ : HashOrder) (db : Database) (hdb : standardDb b ω₀ = .ok db)
    (own : IpAddr → Option Nat) (n₀ n : Net S) (h₀ : Fresh b db n₀) (hx : Honest b db own n₀ n) (i : Nat) (ω : HashOrder) :
    ∃ l, (n.hosts i).nodes b ω = .ok l ∧ ∀ r ∈ l, ∃ j, own r.addr.ip = some j ∧
      ∀ o ∈ r.objects, ∃ o' ∈ (n.hosts j).node.objects, o'.code = o.code := by
  have hi := honest_listInv hdb h₀ hx
  obtain ⟨l, hl, he⟩ := nodes_eq b ω (h := n.hosts i) (fun r hr => (hi.remotes i r hr).1)
  refine ⟨l, hl, ?_⟩
  intro r hr
  have : entry r ∈ (n.hosts i).remotes.map entry := by rw [← he]; exact List.mem_map.mpr ⟨r, hr, rfl⟩
  obtain ⟨r', hr', hee⟩ := List.mem_map.mp this
  obtain ⟨_, j, h1, h2⟩ := hi.remotes i r' hr'
  have ha : r'.addr = r.addr := congrArg Prod.fst hee
  refine ⟨j, by rw [← ha]; exact h1, ?_⟩
  intro o ho
  have hc : o.code.toNat ∈ (entry r').2 := by rw [hee]; exact List.mem_map.mpr ⟨o, ho, rfl⟩
  obtain ⟨o', ho', hco⟩ := List.mem_map.mp (h2 _ hc)
  exact ⟨o', ho', UInt32.toNat.inj hco⟩

/-- Non-vacuity of C73: a fresh network of controllers exists; host 1 adds an object and host 0 searches, which is an
honest execution. (Executions with datagrams, in which a list is filled, are in `Verif/Props/NetworkDiscovery.lean`.) -/
example : ∃ (db : Database) (n₀ n : Net Unit), standardDb .dev .ascending = .ok db ∧ Fresh .dev db n₀ ∧
    Honest .dev db (fun _ => none) n₀ n ∧ codesOf (n.hosts 1).node = [0x0EF001, 0x029001] ∧
    (n.hosts 0).node.lastTid = 1 := by
  obtain ⟨db, hdb, _⟩ := C21_builds .dev .ascending
  obtain ⟨nd, hnd, hinv, hcode, _, _, _, _, htid, _, np, hnp, _⟩ := newNode_inv (S := Unit) hdb (uuid₁ := List.replicate 16 0)
    (uuid₂ := List.replicate 16 0) (by simp) (by simp) .ascending ()
  have hk : KeysOk (Object.fromCode 0x029001) := fromCode_keysOk _
  obtain ⟨n₀', n₁, h1, h2⟩ := C22_add_never_panics (S := Unit) .dev .ascending db hdb (List.replicate 16 0) (List.replicate 16 0)
    (by simp) (by simp) .ascending () [Object.fromCode 0x029001] (by simp [hk])
  rw [hnd] at h1
  simp only [Res.ok.injEq] at h1
  subst h1
  have h3 := (run_inv hinv (ops := [.addObject (Object.fromCode 0x029001)]) (by simp [ProfileSafe, hk]) h2).2
  let x : Net Unit := ⟨fun _ => Host.ofNode nd, [], [], fun _ _ => false, fun _ => false⟩
  have hst : (x.hosts 1).step .dev db (.node (.addObject (Object.fromCode 0x029001))) = .ok (⟨n₁, [], []⟩, []) := by
    obtain ⟨y, hy, h2⟩ := Res.bind_eq_ok.mp h2
    obtain ⟨z, hz, h2⟩ := Res.bind_eq_ok.mp h2
    simp only [Node.run, List.map_nil, Res.ok.injEq, Res.pure_eq, Prod.mk.injEq] at hz h2
    subst hz
    simp only [Host.step, x, Host.ofNode]
    rw [hy]
    simp only [Res.bind_ok, Res.pure_eq]
    rw [← h2.1, ← h2.2]; simp
  have e1 := Honest.api (b := .dev) (db := db) (own := fun _ => none) (n₀ := x) (op := .node (.addObject (Object.fromCode 0x029001))) .init
    (Net.Api.mk _ _ [] trivial hst (by intro p hp; simp at hp)) hk (by simp [replies, handed])
  have e2 := Honest.api (i := 0) (op := .search profileCode (fun _ => true)) e1
    (Net.Api.mk _ _ [] trivial rfl (by intro p hp; simp at hp)) rfl (by
      intro u hu
      simp only [Node.notify] at hu
      unfold replies at hu
      rw [handed_handed_cons] at hu
      simp only [List.map_cons, List.mem_cons] at hu
      rcases hu with rfl | hu
      · have hf := updateTid_fields nd ((searchMessage.setSeoj nodeProfileCode).setDeoj profileCode)
        show SizesOk (nd.updateTid _).1
        unfold SizesOk
        rw [hf.2.2.2.1, hf.2.2.2.2.1, hf.2.2.2.2.2.1]
        decide
      · exfalso; revert hu; simp)
  refine ⟨db, x, _, hdb, ⟨rfl, rfl, fun i => ⟨_, _, _, (), nd, by simp, by simp, hnd, Or.inl rfl⟩, fun _ _ => rfl⟩, e2, ?_, ?_⟩
  · show n₁.objects.map _ = _
    have : (fun o : Object => o.code.toNat) = UInt32.toNat ∘ Object.code := rfl
    rw [this, ← List.map_map, h3, hcode]
    decide
  · show (nd.updateTid _).2.lastTid = 1
    unfold Node.updateTid Node.nextTid
    rw [if_neg (by decide), if_neg (by rw [htid]; decide), htid]; rfl

/-- C73 is false without those rules: an application that reads property 0xD6 of a remote *device* object with
`Controller::send_message` (an ordinary read; e.g. the discharged energy of a storage battery, class 0x027D) makes the
controller list the "objects" found in the bytes of that value: `req` is the request as the remote node decodes it,
`res` the answer as the controller decodes it. -/
theorem C73_fails (b : Build) (ω₀ : HashOrder) (db : Database) (hdb : standardDb b ω₀ = .ok db)
    {S' : Type} (h : Host S') (okc : Nat → Bool) (r : RemoteNode) (rd : Message)
    (hrd : rd.esvByte = 0x62) (x : List UInt8) (hprop : rd.properties = [⟨0xD6, x⟩])
    (req : Message) (hreq : frameOf req = frameOf (h.sendMessage okc true r rd).2.1)
    (ω : HashOrder) (ok : Nat → Bool) (n n' : Node S) (outs : List Out) (hk : ∀ o ∈ n.objects, KeysOk o)
    (hobs : n.observe b ω ok req = .ok (n', outs)) (u : Message) (hu : u ∈ replies outs) (hesv : u.esvByte = 0x72)
    (res : Message) (hres : frameOf res = frameOf u)
    (c : Host S') (e : CallEnv) (he : e.ctrlFree = true) (huu : ∀ i, (e.uuid i).length = 16) :
    ∃ o p c' r', findObject n'.objects rd.deoj = some o ∧ o.properties 0xD6 = some p ∧
      c.invoke b db e res .controller = .ok (c', []) ∧
      c'.remotes = c.remotes.eraseP (fun x => x.addr = res.sender) ++ [r'] ∧
      r'.addr = res.sender ∧ r'.objects.map (fun o => o.code.toNat) = listedCodes ⟨0xD6, p.data⟩ ++ [0x0EF001] := by
  have hs := C49_send okc h r rd
  simp only [] at hs
  generalize (h.sendMessage okc true r rd).2.1 = used at hreq hs
  have hreq1 : req.seoj = used.seoj := UInt32.toNat.inj (congrArg Frame.seoj hreq)
  have hreq0 : req.deoj = used.deoj := UInt32.toNat.inj (congrArg Frame.deoj hreq)
  have hreq2 : req.esvByte = used.esvByte := congrArg Frame.esv hreq
  have h62 : req.esvByte = 0x62 := hreq2.trans (hs.2.2.1.trans hrd)
  have hreq3 : req.properties = used.properties := by
    have hb := congrArg Frame.body hreq
    unfold frameOf at hb
    simp only [← hreq2, h62] at hb
    simpa [isWriteReadByte] using hb
  obtain ⟨_, _, _, _, svc, hhead, _, _⟩ := Node.reply_cases hk hobs hu
  obtain ⟨o', hf, hex, h29, _⟩ := C29_read_returns_data b ω ok n n' req outs hk hobs u hu (by rw [hesv]; rfl)
  have hrp : req.properties = [⟨0xD6, x⟩] := by rw [hreq3, hs.2.2.2.1, hprop]
  have hup := h29 (Or.inl h62)
  rw [hrp] at hup
  obtain ⟨p, hp⟩ := hex ⟨0xD6, x⟩ (by unfold readsOf; rw [if_pos (Or.inl h62), hrp]; simp)
  have hup : u.properties = [⟨0xD6, p.data⟩] := by rw [hup]; unfold dataOf; simp [hp]
  have hudeoj : u.deoj = 0x0EF001 := by rw [hhead.deoj, hreq1, hs.1]
  have hres1 : res.deoj = 0x0EF001 := by
    rw [← hudeoj]; exact UInt32.toNat.inj (congrArg Frame.deoj hres)
  have hres2 : res.esvByte = 0x72 := (congrArg Frame.esv hres).trans hesv
  have hres3 : res.properties = u.properties := by
    have hb := congrArg Frame.body hres
    unfold frameOf at hb
    simp only [hres2, hesv] at hb
    simpa [isWriteReadByte] using hb
  obtain ⟨r', h1, h2, _⟩ := observeController_profile hdb e.ω e.uuid huu c.remotes
    (msg := res) ⟨Or.inl hres2, Or.inl hres1⟩
  simp only [entry, Prod.mk.injEq] at h2
  refine ⟨o', p, { c with remotes := replaceRemoteNode c.remotes r' }, r', ?_, hp, ?_, ?_, h2.1, ?_⟩
  · have : rd.deoj = req.deoj := by rw [hreq0, hs.2.1]
    rw [this]; exact hf
  · simp only [Host.invoke, he, h1, Res.bind_ok, Res.pure_eq]
  · show c.remotes.eraseP (fun f => f.eq r') ++ [r'] = _
    congr 2
    funext y
    unfold RemoteNode.eq
    rw [h2.1]; rfl
  · rw [h2.2]
    unfold announcedCodes
    rw [hres3, hup]
    simp

/-- A node with one object 0x027D01 whose property 0xD6 has the value 0x00000BB8. -/
def exBattery : Res (Node Unit) := do
  let o ← Object.addAll .dev .ascending (Object.fromCode 0x027D01) [exProp 0x80, { exProp 0xD6 with data := [0, 0, 0x0B, 0xB8] }]
  pure ⟨exTransport, [o], 5, none, 0, [], [.node], ()⟩

/-- Non-vacuity of C73_fails: the controller reads 0xD6 of the battery, and would list an object 0x000BB8. -/
example : ∃ n, exBattery = .ok n ∧ n.objects.map Object.code = [0x027D01] ∧
    let rd := ((Message.new.setDeoj 0x027D01).setEsv .ReadRequest).addProperty ⟨0xD6, []⟩
    let req := (exController.sendMessage allOk true ⟨⟨.v4 1, 3610⟩, []⟩ rd).2.1
    rd.esvByte = 0x62 ∧ rd.properties = [⟨0xD6, []⟩] ∧
    ∃ n' outs, n.observe .dev .ascending allOk req = .ok (n', outs) ∧
      (replies outs).map (fun u => (u.esvByte, u.deoj, announcedCodes u)) = [(0x72, 0x0EF001, [0x000BB8])] := by
  refine ⟨_, rfl, by decide +kernel, by decide +kernel, by decide +kernel, _, _, rfl, ?_⟩ <;> decide +kernel

/-! ## C74 -/

/-- The request a search for `code` leads to at a node. -/
theorem search_request (h : Host S) (okc : Nat → Bool) {code : UInt32} (hc : code.toNat < 2 ^ 24) {t : Tx}
    (ht : t ∈ txs (h.searchObject okc code).2.2) (csrc : SocketAddr) :
    ∃ req, recvLoop [.datagram t.bytes csrc] = ([req], .running) ∧ req.sender = csrc ∧ req.seoj = 0x0EF001 ∧
      req.deoj = code ∧ req.esvByte = 0x62 ∧ req.properties = [⟨0xD6, []⟩] := by
  have hsearch := (C49_search okc h code).1 t ht
  rw [Nat.mod_eq_of_lt hc] at hsearch
  obtain ⟨req, hrecv, hsrc, _, _, hseoj, hdeoj, hesv, hprops, _, _⟩ :=
    recv_frame ⟨(h.node.lastTid + 1).toNat, 0x0EF001, code.toNat, 0x62, .single [⟨0xD6, []⟩]⟩
      (by
        exact ⟨UInt16.toNat_lt _, show (0x0EF001 : Nat) < 2 ^ 24 by decide,
          hc, show isWriteReadByte 0x62 = false by decide, by decide⟩)
      (by simp [Frame.encode, be_length, Body.encode, encList, encProp]) csrc
  rw [← hsearch.2] at hrecv
  exact ⟨req, hrecv, hsrc, UInt32.toNat.inj hseoj, UInt32.toNat.inj hdeoj, hesv, hprops⟩

/-- C74 (what holds): a node without an object of the code searched for stays silent. (A search for the node profile,
which every node has, is C23.) -/
theorem C74_absent_silent_partial (b : Build) {S' : Type} (h : Host S') (okc : Nat → Bool) (code : UInt32)
    (hc : code.toNat < 2 ^ 24) (t : Tx) (ht : t ∈ txs (h.searchObject okc code).2.2) (csrc : SocketAddr)
    (n : Node S) (hno : ∀ o ∈ n.objects, o.code ≠ code) :
    ∃ req, recvLoop [.datagram t.bytes csrc] = ([req], .running) ∧
      ∀ ω ok n' outs, n.observe b ω ok req = .ok (n', outs) → txs outs = [] ∧ replies outs = [] := by
  obtain ⟨req, h1, _, _, h4, _, _⟩ := search_request h okc hc ht csrc
  refine ⟨req, h1, fun ω ok n' outs hobs => ?_⟩
  obtain ⟨h5, h6, _⟩ := C25_silence b ω ok n n' req outs hobs (Or.inr (by rw [h4]; exact hno))
  exact ⟨h6, h5⟩

/-- C74 is false for devices: a node that *has* an object of the code searched for, an object without a readable
property 0xD6 (as almost all device classes), answers with an error, and no controller that receives this answer learns
anything from it. -/
theorem C74_fails (b : Build) (db : Database) {S' : Type} (h : Host S') (okc : Nat → Bool) (code : UInt32)
    (hc : code.toNat < 2 ^ 24) (t : Tx) (ht : t ∈ txs (h.searchObject okc code).2.2) (csrc dsrc : SocketAddr)
    (n : Node S) (dst : Object) (hf : findObject n.objects code = some dst) (hk : KeysOk dst)
    (hno : ∀ p, dst.properties 0xD6 = some p → p.readAttr = .Prohibited) :
    ∃ req, recvLoop [.datagram t.bytes csrc] = ([req], .running) ∧
      ∀ ω ok n' outs, n.observe b ω ok req = .ok (n', outs) →
        (replies outs).map (fun u => u.esvByte) = [0x52] ∧
        ∀ t' ∈ txs outs, ∀ res en, recvLoop [.datagram t'.bytes dsrc] = ([res], en) →
          ∀ (c : Host S') (e : CallEnv), c.invoke b db e res .controller = .ok (c, []) := by
  obtain ⟨req, h1, _, _, h4, h5, h6⟩ := search_request h okc hc ht csrc
  refine ⟨req, h1, fun ω ok n' outs hobs => ?_⟩
  obtain ⟨pre, post, s1, s2, s3⟩ := findObject_split hf
  have hr : isRequestByte req.esvByte = true := by rw [h5]; rfl
  obtain ⟨copy, _, _, _, hrej⟩ := C26_accept_iff b ω ok n n' req outs pre post dst
    ⟨s1, by rw [h4]; exact s2, by rw [h4]; exact s3⟩ hk hr hobs
  have hna : ¬ Accepted n req dst copy := by
    intro ha
    obtain ⟨p, hp1, hp2⟩ := ha.1.2 ⟨0xD6, []⟩ (by unfold readsOf; rw [if_pos (Or.inl h5), h6]; simp)
    exact hp2 (hno p hp1)
  have hrep := hrej hna
  rw [h5] at hrep
  refine ⟨hrep, ?_⟩
  intro t' ht' res en hres c e
  rcases observe_txs hobs with ⟨_, h0⟩ | ⟨u, hu, _, _, htx⟩
  · rw [h0] at ht'; simp at ht'
  · rw [hu] at hrep
    simp only [List.map_cons, List.map_nil, List.cons.injEq, and_true] at hrep
    have hub := (htx t' ht').1
    rcases recvOne t'.bytes dsrc with ⟨m, e', h', _, _, h10⟩ | h' | h'
    · rw [hres] at h'
      simp only [Prod.mk.injEq, List.cons.injEq, and_true] at h'
      obtain ⟨rfl, _⟩ := h'
      rw [hub, bytes_esv, hrep] at h10
      simp only [Option.some.injEq] at h10
      exact C58_other_responses_partial b db res c e (by rw [← h10]; decide)
    · rw [hres] at h'; simp at h'
    · rw [hres] at h'; simp at h'

/-- Non-vacuity of C74: searching for a mono-functional light puts two datagrams on the wire; the example node has such
an object, without property 0xD6; it processes the request; another node has none. -/
example : ∃ n, exNode [acceptAll] = .ok n ∧ (txs (exController.searchObject allOk 0x029001).2.2).length = 2 ∧
    (∃ dst, findObject n.objects 0x029001 = some dst ∧ dst.properties 0xD6 = none) ∧
    (∀ o ∈ exController.node.objects, o.code ≠ 0x029001) ∧
    ∃ n' outs, n.observe .dev .ascending allOk
      (((Message.new.setSeoj 0x0EF001).setDeoj 0x029001).setEsv .ReadRequest |>.addProperty ⟨0xD6, []⟩) = .ok (n', outs) ∧
      (txs outs).length = 1 := by
  refine ⟨_, rfl, by decide +kernel, ⟨_, rfl, by decide +kernel⟩, by decide +kernel, _, _, rfl, ?_⟩ <;> decide +kernel

end Uecho
