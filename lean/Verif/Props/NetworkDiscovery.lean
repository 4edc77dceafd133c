import Verif.Spec.Exchange
import Verif.Props.NetworkList
import Verif.Props.EndToEnd
/-!
# Discovery on a network: C75
-/
namespace Uecho
open Spec
variable {S : Type}

/-! ## The messages of a discovery -/

/-- A search message that came from host `c`. -/
def SearchM (own : IpAddr → Option Nat) (c : Nat) (m : Message) : Prop :=
  m.esvByte = 0x62 ∧ m.deoj = profileCode ∧ m.seoj = 0x0EF001 ∧ m.properties = [⟨0xD6, []⟩] ∧ own m.sender.ip = some c

/-- An answer to a search that came from host `i`, with its complete list of devices. -/
def ReplyM (own : IpAddr → Option Nat) (ds : Nat → List Nat) (i : Nat) (m : Message) : Prop :=
  m.esvByte = 0x72 ∧ m.deoj = 0x0EF001 ∧ announcedCodes m = ds i ∧ own m.sender.ip = some i ∧ Received m

def IsPacket (P : Message → Prop) (p : Packet) : Prop := ∃ m, recvLoop [.datagram p.bytes p.src] = ([m], .running) ∧ P m

/-- How a node answers a search. -/
theorem search_reply (b : Build) {n : Node S} (hi : ProfileInv n) {ds : List Nat} (hcodes : codesOf n = 0x0EF001 :: ds)
    (hlen : ds.length ≤ 84) (hone : 0x0EF001 ∉ ds) {own : IpAddr → Option Nat} {c : Nat} {req : Message}
    (hm : SearchM own c req) (ω : HashOrder) (ok : Nat → Bool) :
    ∃ n' outs, n.observe b ω ok req = .ok (n', outs) ∧
      (txs outs ≠ [] ↔ ∃ i, i < n.transport.ucast.length ∧ ok i = true) ∧
      ∀ t ∈ txs outs, t.to = ⟨req.sender.ip, 3610⟩ ∧ (∃ s ∈ n.transport.ucast, t.iface = s.ifaddr) ∧
        ∀ src, ∃ res, recvLoop [.datagram t.bytes src] = ([res], .running) ∧ res.sender = src ∧
          res.esvByte = 0x72 ∧ res.deoj = 0x0EF001 ∧ announcedCodes res = ds := by
  obtain ⟨hesv, hdeoj, hseoj, hprops, _⟩ := hm
  obtain ⟨np, os, ho, hcode, _⟩ := hi.shape
  have hds : ds = os.map (fun o => o.code.toNat) := by
    unfold codesOf at hcodes
    rw [ho] at hcodes
    simp only [List.map_cons, List.cons.injEq] at hcodes
    exact hcodes.2.symm
  have hdev : ∀ o ∈ os, o.code ≠ profileCode := by
    intro o ho' h
    apply hone
    rw [hds]
    exact List.mem_map.mpr ⟨o, ho', by rw [h]; rfl⟩
  obtain ⟨n', outs, u, d, hobs, hu, hd, hhead, hup, htx, _⟩ := profile_read (b := b) ω ok hi
    (by
      intro np' ds' ho' o ho''
      rw [ho] at ho'
      simp only [List.cons.injEq] at ho'
      rw [← ho'.2] at ho''
      exact hdev o ho'') hesv hdeoj hprops
  have hd' : d = UInt8.ofNat os.length :: (os.map Object.code).flatMap (fun x => be 3 x.toNat) := by
    rw [ho] at hd
    simp only [List.map_cons, List.length_cons, Nat.add_sub_cancel, hcode] at hd
    have : profileData (profileCode :: os.map Object.code) os.length 0xD6 =
      some (UInt8.ofNat os.length :: (deviceCodes (profileCode :: os.map Object.code)).flatMap (fun x => be 3 x.toNat)) := rfl
    rw [this, deviceCodes_eq (by
      intro x hx
      obtain ⟨o, ho', rfl⟩ := List.mem_map.mp hx
      exact hdev o ho')] at hd
    exact (Option.some.inj hd).symm
  have hol : os.length ≤ 84 := by rw [hds] at hlen; simpa using hlen
  have hdlen : d.length = 3 * os.length + 1 := by
    rw [hd', List.length_cons, flatMap_be_length, List.length_map]
  refine ⟨n', outs, hobs, ?_, ?_⟩
  · rw [htx]
    have hsend := C44_send ok n.transport ⟨req.sender.ip, port⟩ u
    rw [← hsend.1]
    rcases Manager.send_cases ok n.transport ⟨req.sender.ip, port⟩ u with ⟨h1, h2⟩ | ⟨h1, s, _, h2⟩ <;> simp [h1, h2]
  · intro t ht
    rw [htx] at ht
    obtain ⟨h1, h2, h3⟩ : t.to = ⟨req.sender.ip, port⟩ ∧ t.bytes = u.bytes ∧ ∃ s ∈ n.transport.ucast, t.iface = s.ifaddr := by
      rcases Manager.send_cases ok n.transport ⟨req.sender.ip, port⟩ u with ⟨_, h2⟩ | ⟨_, s, hs, h2⟩
      · rw [h2] at ht; simp at ht
      · rw [h2] at ht
        rw [List.mem_singleton.mp ht]; exact ⟨rfl, rfl, s, hs, rfl⟩
    refine ⟨h1, h3, fun src => ?_⟩
    have hub : u.bytes = Frame.encode ⟨u.tid.toNat, u.seoj.toNat, 0x0EF001, 0x72, .single [⟨0xD6, d⟩]⟩ := by
      rw [Message.bytes_eq_encode u hhead.fmt (by rw [hhead.esv]; decide)]
      unfold frameOf
      rw [hhead.esv, hhead.deoj, hseoj, hup]
      rfl
    obtain ⟨res, hrecv', hsrc', _, _, _, hdeoj', hesv', hprops', _, _⟩ :=
      recv_frame ⟨u.tid.toNat, u.seoj.toNat, 0x0EF001, 0x72, .single [⟨0xD6, d⟩]⟩
        ⟨UInt16.toNat_lt _, Message.objectCode_lt _, show (0x0EF001 : Nat) < 2 ^ 24 by decide,
          show isWriteReadByte 0x72 = false by decide, show (1 : Nat) ≤ 255 by decide, by
          intro p hp; rw [List.mem_singleton.mp hp]; show d.length ≤ 255; omega⟩
        (by
          simp only [Frame.encode, List.length_append, be_length, Body.encode, encList, encProp, List.length_cons,
            List.length_nil, List.flatMap_cons, List.flatMap_nil]
          omega) src
    rw [← hub, ← h2] at hrecv'
    refine ⟨res, hrecv', hsrc', hesv', UInt32.toNat.inj hdeoj', ?_⟩
    unfold announcedCodes
    rw [hprops']
    simp only [List.flatMap_cons, List.flatMap_nil, List.append_nil]
    rw [hd']
    unfold listedCodes
    simp only []
    have hk : (UInt8.ofNat os.length).toNat = os.length := by
      simp [UInt8.toNat_ofNat']; omega
    rw [if_pos ⟨trivial, by rw [hk, flatMap_be_length, List.length_map]; omega⟩]
    rw [objectCodes_flatMap _ (by
      intro x hx
      obtain ⟨o, _, rfl⟩ := List.mem_map.mp hx
      exact code_lt _), List.map_map, hds]
    rfl

/-- One observer call for a message of a discovery. -/
theorem disc_invoke {b : Build} {ω₀ : HashOrder} {db : Database} (hdb : standardDb b ω₀ = .ok db) {h : Host S}
    (hi : ProfileInv h.node) {own : IpAddr → Option Nat} {c i : Nat} {ds : Nat → List Nat}
    (hcodes : codesOf h.node = 0x0EF001 :: ds i) (hlen : (ds i).length ≤ 84) (hone : 0x0EF001 ∉ ds i)
    (how : Owned own i h.node.transport) {m : Message}
    (hm : SearchM own c m ∨ ∃ k, ReplyM own ds k m) (e : CallEnv) (hu : ∀ i, (e.uuid i).length = 16)
    (hfree : e.nodeFree = true ∧ e.ctrlFree = true) (hok : ∀ i, e.ok i = true) (o : ObserverRef) :
    ∃ h' outs, h.invoke b db e m o = .ok (h', outs) ∧ ProfileInv h'.node ∧ codesOf h'.node = 0x0EF001 :: ds i ∧
      h'.node.transport = h.node.transport ∧
      (∀ t ∈ txs outs, ∀ src : SocketAddr, src.ip = t.iface → IsPacket (ReplyM own ds i) ⟨src, 0, 0, t.bytes⟩) ∧
      (o = .node → SearchM own c m → h.node.transport.ucast ≠ [] → ∃ t ∈ txs outs, t.to.ip = m.sender.ip) ∧
      ((h'.remotes = h.remotes ∧ ¬ (o = .controller ∧ ∃ k, ReplyM own ds k m)) ∨
        ∃ k r, ReplyM own ds k m ∧ h'.remotes = replaceRemoteNode h.remotes r ∧
          entry r = (m.sender, ds k ++ [0x0EF001]) ∧ ∀ o ∈ r.objects, StdObject o) := by
  cases o with
  | node =>
    obtain ⟨n', outs, hobs, htx, hone'⟩ : ∃ n' outs, h.node.observe b e.ω e.ok m = .ok (n', outs) ∧
        (∀ t ∈ txs outs, ∀ src : SocketAddr, src.ip = t.iface → IsPacket (ReplyM own ds i) ⟨src, 0, 0, t.bytes⟩) ∧
        (SearchM own c m → h.node.transport.ucast ≠ [] → ∃ t ∈ txs outs, t.to.ip = m.sender.ip) := by
      rcases hm with hm | ⟨k, hm⟩
      · obtain ⟨n', outs, h1, h2, h3⟩ := search_reply b hi hcodes hlen hone hm e.ω e.ok
        refine ⟨n', outs, h1, ?_, ?_⟩
        · intro t ht src hsrc
          obtain ⟨_, ⟨s, hs, h4⟩, h5⟩ := h3 t ht
          obtain ⟨res, h6, h7, h8, h9, h10⟩ := h5 src
          refine ⟨res, h6, h8, h9, h10, ?_, ⟨_, _, h6⟩⟩
          rw [h7, hsrc, h4]
          exact how s (by simp [hs])
        · intro _ hne
          have : txs outs ≠ [] := h2.mpr ⟨0, List.length_pos_iff.mpr hne, hok 0⟩
          obtain ⟨t, ht⟩ := List.exists_mem_of_ne_nil _ this
          exact ⟨t, ht, by rw [(h3 t ht).1]⟩
      · obtain ⟨hf, hs⟩ := received_fields hm.2.2.2.2
        obtain ⟨n', outs, h1⟩ := observe_response_ok b e.ω e.ok h.node m (by rw [hm.1]; decide) hf hs (by rw [hm.1]; decide)
        have h0 := (Node.observe_nonrequest (by rw [hm.1]; decide) h1).2.1
        refine ⟨n', outs, h1, by rw [h0]; simp, ?_⟩
        intro hs
        have := hs.1
        rw [hm.1] at this
        exact absurd this (by decide)
    have hst : h.node.step b (.receive m true e.ω e.ok) = .ok (n', outs) := hobs
    obtain ⟨hp', hc'⟩ := step_inv (op := .receive m true e.ω e.ok) hi trivial hst
    refine ⟨{ h with node := n' }, outs, ?_, hp', ?_, (observe_frame hobs).2.1, htx, fun _ => hone', Or.inl ⟨rfl, by simp⟩⟩
    · simp only [Host.invoke, Node.observeTry, hfree.1, Bool.not_true, Bool.false_eq_true, if_false, hobs, Res.bind_ok,
        Res.pure_eq]
    · have e1 : ∀ k : Node S, codesOf k = (k.objects.map Object.code).map UInt32.toNat := by
        intro k; unfold codesOf; rw [List.map_map]; rfl
      rw [← hcodes, e1, e1, hc']; simp [addedCodes]
  | controller =>
    by_cases hr : ∃ k, ReplyM own ds k m
    · obtain ⟨k, hk⟩ := hr
      obtain ⟨r, h1, h2, h3⟩ := observeController_profile hdb e.ω e.uuid hu h.remotes
        (msg := m) ⟨Or.inl hk.1, Or.inl hk.2.1⟩
      refine ⟨{ h with remotes := replaceRemoteNode h.remotes r }, [], ?_, hi, hcodes, rfl, by simp [txs], by simp,
        Or.inr ⟨k, r, hk, rfl, by rw [h2, hk.2.2.1], h3⟩⟩
      simp only [Host.invoke, hfree.2, h1, Res.bind_ok, Res.pure_eq]
    · have hs : SearchM own c m := by
        rcases hm with hm | hm
        · exact hm
        · exact absurd hm hr
      refine ⟨h, [], ?_, hi, hcodes, rfl, by simp [txs], by simp, Or.inl ⟨rfl, fun hx => hr hx.2⟩⟩
      have := observeController_other b db e.ω e.uuid e.ctrlFree h.remotes (msg := m) (Or.inr (by
        rintro ⟨h1 | h1, _⟩ <;> rw [hs.1] at h1 <;> exact absurd h1 (by decide)))
      simp only [Host.invoke, this, Res.bind_ok, Res.pure_eq]
  | device => exact ⟨h, [], rfl, hi, hcodes, rfl, by simp [txs], by simp, Or.inl ⟨rfl, by simp⟩⟩
  | user k =>
    exact ⟨{ h with seen := h.seen ++ [(k, m)] }, [], rfl, hi, hcodes, rfl, by simp [txs], by simp, Or.inl ⟨rfl, by simp⟩⟩

/-! ## The invariant -/

/-- How far the discovery of host `j` by host `c` has got. -/
def Stage (own : IpAddr → Option Nat) (c j : Nat) (ds : Nat → List Nat) (n₀ n : Net S) : Prop :=
  (∃ p ∈ n.flying, p.host = j ∧ IsPacket (SearchM own c) p ∧ Listening n₀ j p.srv) ∨
  (∃ q ∈ n.busy, q.host = j ∧ SearchM own c q.msg ∧ ObserverRef.node ∈ q.todo) ∨
  (∃ p ∈ n.flying, p.host = c ∧ IsPacket (ReplyM own ds j) p ∧ Listening n₀ c p.srv) ∨
  (∃ q ∈ n.busy, q.host = c ∧ ReplyM own ds j q.msg ∧ ObserverRef.controller ∈ q.todo) ∨
  (∃ r ∈ (n.hosts c).remotes, own r.addr.ip = some j ∧ (entry r).2 = ds j ++ [0x0EF001])

structure DiscInv (own : IpAddr → Option Nat) (c j : Nat) (ds : Nat → List Nat) (n₀ n : Net S) : Prop where
  hosts : ∀ i, ProfileInv (n.hosts i).node ∧ codesOf (n.hosts i).node = 0x0EF001 :: ds i ∧
    (n.hosts i).node.transport = (n₀.hosts i).node.transport
  std : ∀ r ∈ (n.hosts c).remotes, ∀ o ∈ r.objects, StdObject o
  flying : ∀ p ∈ n.flying, IsPacket (SearchM own c) p ∨ ∃ i, IsPacket (ReplyM own ds i) p
  busy : ∀ q ∈ n.busy, SearchM own c q.msg ∨ ∃ i, ReplyM own ds i q.msg
  stage : Stage own c j ds n₀ n
  sound : ∀ i o, n.poisoned i o = false

/-- What stays fixed during a discovery. -/
structure DiscEnv (own : IpAddr → Option Nat) (c j : Nat) (ds : Nat → List Nat) (n₀ : Net S) : Prop where
  small : ∀ i, (ds i).length ≤ 84 ∧ 0x0EF001 ∉ ds i
  owned : ∀ i, Owned own i (n₀.hosts i).node.transport
  clisten : ∃ k, Listening n₀ c k
  cobs : ∀ s ∈ (n₀.hosts c).threads, ObserverRef.controller ∈ s.observers
  jobs : ∀ s ∈ (n₀.hosts j).threads, ObserverRef.node ∈ s.observers
  jucast : (n₀.hosts j).node.transport.ucast ≠ []

theorem mem_split_cases {α : Type} {l l₁ l₂ : List α} {x y : α} (h : l = l₁ ++ x :: l₂) (hy : y ∈ l) :
    y = x ∨ y ∈ l₁ ++ l₂ := by
  rw [h] at hy
  rcases List.mem_append.mp hy with hy | hy
  · right; simp [hy]
  · rcases List.mem_cons.mp hy with hy | hy
    · exact Or.inl hy
    · right; simp [hy]

theorem mem_of_split {α : Type} {l l₁ l₂ : List α} {x y : α} (h : l = l₁ ++ x :: l₂) (hy : y ∈ l₁ ++ l₂) : y ∈ l := by
  rw [h]
  rcases List.mem_append.mp hy with hy | hy <;> simp [hy]

theorem isPacket_congr {P : Message → Prop} {p p' : Packet} (h : IsPacket P p) (hb : p'.bytes = p.bytes)
    (hs : p'.src = p.src) : IsPacket P p' := by
  unfold IsPacket at *; rw [hb, hs]; exact h

theorem replace_keeps {l : List RemoteNode} {r x : RemoteNode} (h : x ∈ l) :
    x ∈ replaceRemoteNode l r ∨ x.addr = r.addr := by
  by_cases hx : x.eq r = true
  · right; unfold RemoteNode.eq at hx; exact eq_of_beq hx
  · left
    unfold replaceRemoteNode
    rw [List.mem_append]
    left
    exact (List.mem_eraseP_of_neg (by simpa using hx)).mpr h

theorem reliable_inv {b : Build} {ω₀ : HashOrder} {db : Database} (hdb : standardDb b ω₀ = .ok db)
    {own : IpAddr → Option Nat} {c j : Nat} {ds : Nat → List Nat} {n₀ n n' : Net S} (he : DiscEnv own c j ds n₀)
    (hi : DiscInv own c j ds n₀ n) {i : Nat} {outs : List Out} (h : Reliable b db own n i outs n') : DiscInv own c j ds n₀ n' := by
  have hthreads : ∀ i, (n.hosts i).threads = (n₀.hosts i).threads := by
    intro i; unfold Host.threads; rw [(hi.hosts i).2.2]
  have hlisten : ∀ i k, Listening n i k ↔ Listening n₀ i k := by
    intro i k; unfold Listening; rw [hthreads]
  cases h with
  | receive l₁ l₂ p s hf hs hr hidle =>
    have hp : p ∈ n.flying := by rw [hf]; simp
    obtain ⟨m, hm, hmc⟩ : ∃ m, recvLoop [.datagram p.bytes p.src] = ([m], .running) ∧
        (SearchM own c m ∨ ∃ i, ReplyM own ds i m) := by
      rcases hi.flying p hp with ⟨m, h1, h2⟩ | ⟨i, m, h1, h2⟩
      · exact ⟨m, h1, Or.inl h2⟩
      · exact ⟨m, h1, Or.inr ⟨i, h2⟩⟩
    have hx : n.received p s (l₁ ++ l₂) =
        { n with flying := l₁ ++ l₂, busy := n.busy ++ [⟨p.host, p.srv, m, s.observers⟩] } := by
      unfold Net.received; rw [hm]
    rw [hx]
    have hsm : s ∈ (n₀.hosts p.host).threads := by
      rw [← hthreads]; exact List.mem_of_getElem? hs
    refine ⟨hi.hosts, hi.std, fun p' hp' => hi.flying p' (mem_of_split hf hp'), ?_, ?_, hi.sound⟩
    · intro q hq
      rcases List.mem_append.mp hq with hq | hq
      · exact hi.busy q hq
      · rw [List.mem_singleton.mp hq]; exact hmc
    · rcases hi.stage with ⟨p', h1, h2, h3, h4⟩ | ⟨q, h1, h2⟩ | ⟨p', h1, h2, h3, h4⟩ | ⟨q, h1, h2⟩ | h5
      · rcases mem_split_cases hf h1 with rfl | h1
        · right; left
          obtain ⟨m', h5, h6⟩ := h3
          rw [hm] at h5
          simp only [Prod.mk.injEq, List.cons.injEq, and_true] at h5
          subst h5
          exact ⟨_, List.mem_append.mpr (Or.inr (List.mem_singleton.mpr rfl)), h2, h6, he.jobs s (by rw [← h2]; exact hsm)⟩
        · exact Or.inl ⟨p', h1, h2, h3, h4⟩
      · exact Or.inr (Or.inl ⟨q, List.mem_append.mpr (Or.inl h1), h2⟩)
      · rcases mem_split_cases hf h1 with rfl | h1
        · right; right; right; left
          obtain ⟨m', h5, h6⟩ := h3
          rw [hm] at h5
          simp only [Prod.mk.injEq, List.cons.injEq, and_true] at h5
          subst h5
          exact ⟨_, List.mem_append.mpr (Or.inr (List.mem_singleton.mpr rfl)), h2, h6, he.cobs s (by rw [← h2]; exact hsm)⟩
        · exact Or.inr (Or.inr (Or.inl ⟨p', h1, h2, h3, h4⟩))
      · exact Or.inr (Or.inr (Or.inr (Or.inl ⟨q, List.mem_append.mpr (Or.inl h1), h2⟩)))
      · exact Or.inr (Or.inr (Or.inr (Or.inr h5)))
  | drop l₁ l₂ p hf hd =>
    refine ⟨hi.hosts, hi.std, fun p' hp' => hi.flying p' (mem_of_split hf hp'), hi.busy, ?_, hi.sound⟩
    rcases hi.stage with ⟨p', h1, h2, h3, h4⟩ | h2 | ⟨p', h1, h2, h3, h4⟩ | h2 | h5
    · rcases mem_split_cases hf h1 with rfl | h1
      · rw [hlisten, h2] at hd; exact absurd h4 hd
      · exact Or.inl ⟨p', h1, h2, h3, h4⟩
    · exact Or.inr (Or.inl h2)
    · rcases mem_split_cases hf h1 with rfl | h1
      · rw [hlisten, h2] at hd; exact absurd h4 hd
      · exact Or.inr (Or.inr (Or.inl ⟨p', h1, h2, h3, h4⟩))
    · exact Or.inr (Or.inr (Or.inr (Or.inl h2)))
    · exact Or.inr (Or.inr (Or.inr (Or.inr h5)))
  | call l₁ l₂ q o os e h' outs ps hb ht hpo hu hfree hok hinv hps =>
    have hq : q ∈ n.busy := by rw [hb]; simp
    obtain ⟨hp, hcodes, htr⟩ := hi.hosts q.host
    obtain ⟨h'', outs', g1, g2, g3, g4, g5, g6, g7⟩ := disc_invoke hdb hp hcodes (he.small q.host).1 (he.small q.host).2
      (by rw [htr]; exact he.owned q.host) (hi.busy q hq) e hu hfree hok o
    rw [hinv] at g1
    simp only [Res.ok.injEq, Prod.mk.injEq] at g1
    obtain ⟨rfl, rfl⟩ := g1
    have hself : (n.setHost q.host h').hosts q.host = h' := by unfold Net.setHost; simp
    have hother : ∀ i, i ≠ q.host → (n.setHost q.host h').hosts i = n.hosts i := by
      intro i hne; unfold Net.setHost; simp [hne]
    have hnew : ∀ p ∈ ps, IsPacket (ReplyM own ds q.host) p := by
      intro p hpp
      obtain ⟨t, ht', h1, h2⟩ := hps.1 p hpp
      exact isPacket_congr (g5 t (mem_txs.mp ht') p.src h2) h1 rfl
    have hkeep : ∀ q' ∈ n.busy, q' = q ∨ q' ∈ l₁ ++ { q with todo := os } :: l₂ := by
      intro q' hq'
      rcases mem_split_cases hb hq' with h | h
      · exact Or.inl h
      · right
        rcases List.mem_append.mp h with h | h <;> simp [h]
    have hin : ({ q with todo := os } : Busy) ∈ l₁ ++ { q with todo := os } :: l₂ := by simp
    refine ⟨?_, ?_, ?_, ?_, ?_, hi.sound⟩
    · intro i
      show ProfileInv ((n.setHost q.host h').hosts i).node ∧ codesOf ((n.setHost q.host h').hosts i).node = _ ∧
        ((n.setHost q.host h').hosts i).node.transport = _
      by_cases hne : i = q.host
      · subst hne; rw [hself]; exact ⟨g2, g3, g4.trans htr⟩
      · rw [hother i hne]; exact hi.hosts i
    · show ∀ r ∈ ((n.setHost q.host h').hosts c).remotes, _
      by_cases hne : c = q.host
      · subst hne; rw [hself]
        rcases g7 with ⟨g7, _⟩ | ⟨k, r, _, g7, _, g8⟩
        · rw [g7]; exact hi.std
        · rw [g7]
          intro x hx
          rcases replace_mem hx with hx | rfl
          · exact hi.std x hx
          · exact g8
      · rw [hother c hne]; exact hi.std
    · intro p hpp
      rcases List.mem_append.mp hpp with hpp | hpp
      · exact hi.flying p hpp
      · exact Or.inr ⟨_, hnew p hpp⟩
    · intro q' hq'
      rcases List.mem_append.mp hq' with h | h
      · exact hi.busy q' (by rw [hb]; simp [h])
      · rcases List.mem_cons.mp h with rfl | h
        · exact hi.busy q hq
        · exact hi.busy q' (by rw [hb]; simp [h])
    · rcases hi.stage with ⟨p', h1, h2⟩ | ⟨q', h1, h2, h3, h4⟩ | ⟨p', h1, h2⟩ | ⟨q', h1, h2, h3, h4⟩ | ⟨r, h1, h2, h3⟩
      · exact Or.inl ⟨p', List.mem_append.mpr (Or.inl h1), h2⟩
      · rcases hkeep q' h1 with rfl | h1
        · rw [ht] at h4
          rcases List.mem_cons.mp h4 with h4 | h4
          · -- the node answers
            obtain ⟨t, h5, h6⟩ := g6 h4.symm h3 (by rw [htr, h2]; exact he.jucast)
            obtain ⟨k, hk⟩ := he.clisten
            obtain ⟨p, h7, h8, _, _, h11⟩ := hps.2 t (mem_txs.mpr h5) c (by rw [h6]; exact h3.2.2.2.2)
              ⟨k, (hlisten c k).mpr hk⟩
            refine Or.inr (Or.inr (Or.inl ⟨p, List.mem_append.mpr (Or.inr h7), h8, ?_, (hlisten c _).mp h11⟩))
            rw [← h2]; exact hnew p h7
          · exact Or.inr (Or.inl ⟨_, hin, h2, h3, h4⟩)
        · exact Or.inr (Or.inl ⟨q', h1, h2, h3, h4⟩)
      · exact Or.inr (Or.inr (Or.inl ⟨p', List.mem_append.mpr (Or.inl h1), h2⟩))
      · rcases hkeep q' h1 with rfl | h1
        · rw [ht] at h4
          rcases List.mem_cons.mp h4 with h4 | h4
          · -- the controller notes the node
            rcases g7 with ⟨_, g7⟩ | ⟨k, r, g8, g7, g9, _⟩
            · exact absurd ⟨h4.symm, j, h3⟩ g7
            · have hk : k = j := by
                have := g8.2.2.2.1
                rw [h3.2.2.2.1] at this
                exact (Option.some.inj this).symm
              subst hk
              right; right; right; right
              refine ⟨r, ?_, ?_, by rw [g9]⟩
              · show r ∈ ((n.setHost _ h').hosts c).remotes
                rw [← h2, hself, g7]
                unfold replaceRemoteNode; simp
              · have : r.addr = q'.msg.sender := congrArg Prod.fst g9
                rw [this]; exact h3.2.2.2.1
          · exact Or.inr (Or.inr (Or.inr (Or.inl ⟨_, hin, h2, h3, h4⟩)))
        · exact Or.inr (Or.inr (Or.inr (Or.inl ⟨q', h1, h2, h3, h4⟩)))
      · right; right; right; right
        show ∃ r ∈ ((n.setHost q.host h').hosts c).remotes, _
        by_cases hne : c = q.host
        · subst hne; rw [hself]
          rcases g7 with ⟨g7, _⟩ | ⟨k, x, g8, g7, g9, _⟩
          · rw [g7]; exact ⟨r, h1, h2, h3⟩
          · rw [g7]
            rcases replace_keeps (r := x) h1 with h4 | h4
            · exact ⟨r, h4, h2, h3⟩
            · have hxa : x.addr = q.msg.sender := congrArg Prod.fst g9
              have hk : k = j := by
                have h5 := g8.2.2.2.1
                rw [← hxa, ← h4, h2] at h5
                exact (Option.some.inj h5).symm
              subst hk
              exact ⟨x, by unfold replaceRemoteNode; simp, by rw [← h4]; exact h2, by rw [g9]⟩
        · rw [hother c hne]; exact ⟨r, h1, h2, h3⟩
  | die l₁ l₂ q o os e hb ht hpo hu hfree hok hinv =>
    exfalso
    have hq : q ∈ n.busy := by rw [hb]; simp
    obtain ⟨hp, hcodes, htr⟩ := hi.hosts q.host
    obtain ⟨h'', outs', g1, _⟩ := disc_invoke hdb hp hcodes (he.small q.host).1 (he.small q.host).2
      (by rw [htr]; exact he.owned q.host) (hi.busy q hq) e hu hfree hok o
    rw [hinv] at g1
    simp at g1
  | infected l₁ l₂ q o os hb ht hpo => rw [hi.sound] at hpo; cases hpo
  | skip l₁ l₂ q o os hb ht hpo hm => rw [hi.sound] at hpo; cases hpo
  | done l₁ l₂ q hb ht =>
    refine ⟨hi.hosts, hi.std, hi.flying, fun q' hq' => hi.busy q' (mem_of_split hb hq'), ?_, hi.sound⟩
    rcases hi.stage with h2 | ⟨q', h1, h2, h3, h4⟩ | h2 | ⟨q', h1, h2, h3, h4⟩ | h5
    · exact Or.inl h2
    · rcases mem_split_cases hb h1 with rfl | h1
      · rw [ht] at h4; simp at h4
      · exact Or.inr (Or.inl ⟨q', h1, h2, h3, h4⟩)
    · exact Or.inr (Or.inr (Or.inl h2))
    · rcases mem_split_cases hb h1 with rfl | h1
      · rw [ht] at h4; simp at h4
      · exact Or.inr (Or.inr (Or.inr (Or.inl ⟨q', h1, h2, h3, h4⟩)))
    · exact Or.inr (Or.inr (Or.inr (Or.inr h5)))

/-! ## C75 -/

theorem reliable_internal {b : Build} {db : Database} {own : IpAddr → Option Nat} {n n' : Net S} {i : Nat}
    {outs : List Out} (h : Reliable b db own n i outs n') : Net.Internal b db n i outs n' := by
  cases h with
  | receive l₁ l₂ p s hf hs hr hidle => exact .receive l₁ l₂ p s hf hs hr hidle
  | drop l₁ l₂ p hf hd => exact .lose l₁ l₂ p hf
  | call l₁ l₂ q o os e h' outs ps hb ht hpo hu hfree hok hinv hps => exact .call l₁ l₂ q o os e h' outs ps hb ht hpo hu hinv hps.1
  | die l₁ l₂ q o os e hb ht hpo hu hfree hok hinv => exact .die l₁ l₂ q o os e hb ht hpo hu hinv
  | infected l₁ l₂ q o os hb ht hpo => exact .infected l₁ l₂ q o os hb ht hpo
  | skip l₁ l₂ q o os hb ht hpo hm => exact .skip l₁ l₂ q o os hb ht hpo hm
  | done l₁ l₂ q hb ht => exact .done l₁ l₂ q hb ht

/-- Copies that a reliable network can make: one for each datagram addressed to a running host, at that host. -/
theorem deliver_copies (own : IpAddr → Option Nat) (n : Net S) (outs : List Out) :
    ∃ ps, Delivered own n outs ps ∧ ∀ p ∈ ps, ∃ t, Out.tx t ∈ outs ∧ p.bytes = t.bytes ∧ p.src.ip = t.iface ∧
      own t.to.ip = some p.host := by
  classical
  induction outs with
  | nil => exact ⟨[], ⟨by intro p hp; simp at hp, by intro t ht; simp at ht⟩, by simp⟩
  | cons o outs ih =>
    obtain ⟨ps, ⟨h1, h2⟩, h0⟩ := ih
    have h0' : ∀ p ∈ ps, ∃ t, Out.tx t ∈ o :: outs ∧ p.bytes = t.bytes ∧ p.src.ip = t.iface ∧
        own t.to.ip = some p.host := by
      intro p hp
      obtain ⟨t, ht, hx⟩ := h0 p hp
      exact ⟨t, by simp [ht], hx⟩
    have h1' : Net.CopiesOf (o :: outs) ps := by
      intro p hp
      obtain ⟨t, ht, hx⟩ := h1 p hp
      exact ⟨t, by simp [ht], hx⟩
    by_cases hx : ∃ t j k, o = .tx t ∧ own t.to.ip = some j ∧ Listening n j k
    · obtain ⟨t, j, k, rfl, h3, h4⟩ := hx
      refine ⟨⟨⟨t.iface, 3610⟩, j, k, t.bytes⟩ :: ps, ⟨?_, ?_⟩, ?_⟩
      · intro p hp
        rcases List.mem_cons.mp hp with rfl | hp
        · exact ⟨t, by simp, rfl, rfl⟩
        · exact h1' p hp
      · intro t' ht' j' hj' hk'
        rcases List.mem_cons.mp ht' with ht' | ht'
        · simp only [Out.tx.injEq] at ht'
          subst ht'
          rw [h3] at hj'
          simp only [Option.some.injEq] at hj'
          subst hj'
          exact ⟨⟨⟨_, 3610⟩, _, _, _⟩, List.mem_cons_self, rfl, rfl, rfl, h4⟩
        · obtain ⟨p, hp, hx⟩ := h2 t' ht' j' hj' hk'
          exact ⟨p, by simp [hp], hx⟩
      · intro p hp
        rcases List.mem_cons.mp hp with rfl | hp
        · exact ⟨t, by simp, rfl, rfl, h3⟩
        · exact h0' p hp
    · refine ⟨ps, ⟨h1', ?_⟩, h0'⟩
      intro t' ht' j' hj' hk'
      rcases List.mem_cons.mp ht' with ht' | ht'
      · obtain ⟨k, hk⟩ := hk'
        exact absurd ⟨t', j', k, ht'.symm, hj', hk⟩ hx
      · exact h2 t' ht' j' hj' hk'

/-- A reliable network that is not at rest can go on, without delivering anything to a wrong host. -/
theorem reliable_step_exists (b : Build) (db : Database) (own : IpAddr → Option Nat) (n : Net S)
    (hn : n.flying ≠ [] ∨ n.busy ≠ []) : ∃ i outs n', Reliable b db own n i outs n' ∧ Routed own n outs n' := by
  cases hb : n.busy with
  | cons q l =>
    cases ht : q.todo with
    | nil => exact ⟨_, _, _, .done [] l q hb ht, fun p hp => Or.inl hp⟩
    | cons o os =>
      let e : CallEnv := ⟨true, true, .ascending, fun _ => List.replicate 16 0, fun _ => true⟩
      cases hpo : n.poisoned q.host o with
      | true => exact ⟨_, _, _, .infected [] l q o os hb ht hpo, fun p hp => Or.inl hp⟩
      | false =>
      cases hinv : (n.hosts q.host).invoke b db e q.msg o with
      | panic =>
        exact ⟨_, _, _, .die [] l q o os e hb ht hpo (by intro i; simp [e]) ⟨rfl, rfl⟩ (fun _ => rfl) hinv, fun p hp => Or.inl hp⟩
      | ok r =>
        obtain ⟨ps, hps, hrt⟩ := deliver_copies own n r.2
        refine ⟨_, _, _, .call [] l q o os e r.1 r.2 ps hb ht hpo (by intro i; simp [e]) ⟨rfl, rfl⟩ (fun _ => rfl) hinv hps, ?_⟩
        intro p hp
        rcases List.mem_append.mp hp with hp | hp
        · exact Or.inl hp
        · obtain ⟨t, h1, h2, h3, h4⟩ := hrt p hp
          exact Or.inr ⟨t, h1, h2, h3, fun j hj => by rw [h4] at hj; exact Option.some.inj hj⟩
  | nil =>
    cases hf : n.flying with
    | nil => simp [hf, hb] at hn
    | cons p l =>
      have hsub : ∀ x : Packet, x ∈ [] ++ l → x ∈ n.flying := by intro x hx; rw [hf]; simpa using Or.inr hx
      by_cases hl : Listening n p.host p.srv
      · obtain ⟨s, hs, hr⟩ := hl
        refine ⟨_, _, _, .receive [] l p s hf hs hr (by rw [hb]; simp), ?_⟩
        intro x hx
        refine Or.inl (hsub x ?_)
        unfold Net.received at hx
        split at hx <;> exact hx
      · exact ⟨_, _, _, .drop [] l p hf hl, fun x hx => Or.inl (hsub x hx)⟩

/-- C75, progress: a reliable network that is not at rest can go on, and cannot go on forever: every execution can be,
and if continued is, brought to rest. -/
theorem C75_progress (b : Build) (db : Database) (own : IpAddr → Option Nat) :
    (∀ n : Net S, (n.flying ≠ [] ∨ n.busy ≠ []) → ∃ i outs n', Reliable b db own n i outs n') ∧
    (¬ ∃ f : Nat → Net S, ∀ k, ∃ i outs, Reliable b db own (f k) i outs (f (k + 1))) ∧
    (∀ n : Net S, ∃ n', Reliably b db own n n' ∧ n'.flying = [] ∧ n'.busy = []) := by
  refine ⟨?_, ?_, ?_⟩
  · intro n hn
    obtain ⟨i, outs, n', h, _⟩ := reliable_step_exists b db own n hn
    exact ⟨i, outs, n', h⟩
  · rintro ⟨f, hf⟩
    refine C72_comes_to_rest b db ⟨f, fun k => ?_⟩
    obtain ⟨i, outs, h⟩ := hf k
    exact ⟨i, outs, reliable_internal h⟩
  · have key : ∀ (x : Nat × Nat × Nat × Nat) (m n : Net S), Reliably b db own m n → netMeasure n = x →
        ∃ n', Reliably b db own m n' ∧ n'.flying = [] ∧ n'.busy = [] := by
      intro x
      induction x using lex4.wf.induction with
      | _ x ih =>
        intro m n hm hx
        by_cases hn : n.flying ≠ [] ∨ n.busy ≠ []
        · obtain ⟨i, outs, n₁, h1, _⟩ := reliable_step_exists b db own n hn
          have hd := internal_decreases (reliable_internal h1)
          rw [hx] at hd
          exact ih _ hd m n₁ (.step hm h1) rfl
        · refine ⟨n, hm, ?_, ?_⟩
          · exact Classical.not_not.mp (fun h => hn (Or.inl h))
          · exact Classical.not_not.mp (fun h => hn (Or.inr h))
    intro n
    exact key _ n n (.refl n) rfl

/-- C75: a network of any number of nodes with any (honest) history is at rest, no observer has
panicked so far (C82), and the application of host `c`, a
controller that runs, searches. `j` is a host with a running thread to which a copy of the search is under way (`c`
itself included), and every node has at most 84 devices (what fits into a frame). Then, in every reliable execution,
whatever the interleaving and the order of the answers, once the network is at rest again the controller lists
host `j` with exactly its devices and the node profile. -/
theorem C75_discovers (b : Build) (ω₀ : HashOrder) (db : Database) (hdb : standardDb b ω₀ = .ok db)
    (own : IpAddr → Option Nat) (nF n₀ n₁ n₂ : Net S) (hF : Fresh b db nF) (hx : Honest b db own nF n₀)
    (hrest : n₀.flying = [] ∧ n₀.busy = []) (hsound : ∀ i o, n₀.poisoned i o = false) (ds : Nat → List Nat)
    (hds : ∀ i, codesOf (n₀.hosts i).node = 0x0EF001 :: ds i ∧ (ds i).length ≤ 84 ∧ 0x0EF001 ∉ ds i)
    -- the controller and its search
    (c : Nat) (hc : ∃ k, Listening n₀ c k) (hcobs : ∀ s ∈ (n₀.hosts c).threads, ObserverRef.controller ∈ s.observers)
    (ok : Nat → Bool) (outs : List Out) (hsearch : Net.Api b db n₀ c (.search profileCode ok) outs n₁)
    -- the node
    (j : Nat) (hju : (n₀.hosts j).node.transport.ucast ≠ [])
    (hjobs : ∀ s ∈ (n₀.hosts j).threads, ObserverRef.node ∈ s.observers)
    (hcopy : ∃ p ∈ n₁.flying, p.host = j ∧ Listening n₀ j p.srv)
    -- what happens then
    (hrun : Reliably b db own n₁ n₂) (hend : n₂.flying = [] ∧ n₂.busy = []) (ω : HashOrder) :
    ∃ l, (n₂.hosts c).nodes b ω = .ok l ∧
      ∃ r ∈ l, own r.addr.ip = some j ∧ r.objects.map (fun o => o.code.toNat) = ds j ++ [0x0EF001] := by
  have hli := honest_listInv hdb hF hx
  have henv : DiscEnv own c j ds n₀ :=
    ⟨fun i => (hds i).2, fun i => (hli.hosts i).2, hc, hcobs, hjobs, hju⟩
  -- after the search
  have h1 : DiscInv own c j ds n₀ n₁ := by
    cases hsearch with
    | mk h' outs ps ha hs hps =>
      obtain ⟨hr, hcase⟩ := host_honest (own := own) (i := c) ha (show HonestOp own c _ _ from rfl) hs
      have hs' : (h', outs) = ((n₀.hosts c).searchObject ok profileCode).2 := by
        simp only [Host.step, Res.ok.injEq] at hs; rw [← hs]
      have hps' : ∀ p ∈ ps, IsPacket (SearchM own c) p := by
        intro p hp
        obtain ⟨t, ht, h2, h3⟩ := hps p hp
        have ht' : t ∈ txs ((n₀.hosts c).searchObject ok profileCode).2.2 := by
          rw [← hs']; exact mem_txs.mp ht
        obtain ⟨req, g1, g2, g3, g4, g5, g6⟩ := search_request (n₀.hosts c) ok (code := profileCode) (by decide) ht' p.src
        rw [← h2] at g1
        refine ⟨req, g1, g5, g4, g3, g6, ?_⟩
        rw [g2, h3]
        obtain ⟨s, hs, h4⟩ : ∃ s ∈ (n₀.hosts c).node.transport.mcast, t.iface = s.ifaddr := by
          simp only [Host.searchObject, Node.notify] at ht'
          rw [txs_handed_cons, Node.updateTid_transport] at ht'
          obtain ⟨k, h5, _⟩ := Manager.notify_cases ok (n₀.hosts c).node.transport
            ((n₀.hosts c).node.updateTid ((searchMessage.setSeoj nodeProfileCode).setDeoj profileCode)).1
          rw [h5] at ht'
          obtain ⟨s, hs, rfl⟩ := List.mem_map.mp ht'
          exact ⟨s, List.mem_of_mem_take hs, rfl⟩
        rw [h4]
        exact (hli.hosts c).2 s (by simp [hs])
      have hnode : h'.node.objects = (n₀.hosts c).node.objects ∧ h'.node.handlers = (n₀.hosts c).node.handlers ∧
          h'.node.transport = (n₀.hosts c).node.transport := by
        have : h'.node = ((n₀.hosts c).node.updateTid ((searchMessage.setSeoj nodeProfileCode).setDeoj profileCode)).2 :=
          congrArg (fun x : Host S × List Out => x.1.node) hs'
        rw [this]
        exact ⟨(updateTid_same _ _).1, (updateTid_same _ _).2, Node.updateTid_transport _ _⟩
      have hself : (n₀.setHost c h').hosts c = h' := by unfold Net.setHost; simp
      have hother : ∀ i, i ≠ c → (n₀.setHost c h').hosts i = n₀.hosts i := by
        intro i hne; unfold Net.setHost; simp [hne]
      refine ⟨?_, ?_, ?_, ?_, ?_, hsound⟩
      · intro i
        show ProfileInv ((n₀.setHost c h').hosts i).node ∧ codesOf ((n₀.setHost c h').hosts i).node = _ ∧
          ((n₀.setHost c h').hosts i).node.transport = _
        by_cases hne : i = c
        · subst hne; rw [hself]
          refine ⟨(inv_same_objects (hli.hosts i).1 hnode.1 hnode.2.1).1, ?_, hnode.2.2⟩
          rw [← (hds i).1]; unfold codesOf; rw [hnode.1]
        · rw [hother i hne]; exact ⟨(hli.hosts i).1, (hds i).1, rfl⟩
      · show ∀ r ∈ ((n₀.setHost c h').hosts c).remotes, _
        rw [hself, hr]; exact fun r hr => (hli.remotes c r hr).1
      · intro p hp
        rcases List.mem_append.mp hp with hp | hp
        · rw [hrest.1] at hp; simp at hp
        · exact Or.inl (hps' p hp)
      · intro q hq
        have hq : q ∈ n₀.busy := hq
        rw [hrest.2] at hq; simp at hq
      · obtain ⟨p, g1, g2, g3⟩ := hcopy
        rcases List.mem_append.mp g1 with g1' | g1'
        · rw [hrest.1] at g1'; simp at g1'
        · exact Or.inl ⟨p, g1, g2, hps' p g1', g3⟩
  have h2 : DiscInv own c j ds n₀ n₂ := by
    clear hend hcopy hsearch
    induction hrun with
    | refl => exact h1
    | step _ h' ih => exact reliable_inv hdb henv ih h'
  obtain ⟨r', hr', ha, hcs⟩ : ∃ r ∈ (n₂.hosts c).remotes, own r.addr.ip = some j ∧ (entry r).2 = ds j ++ [0x0EF001] := by
    rcases h2.stage with ⟨p, h, _⟩ | ⟨q, h, _⟩ | ⟨p, h, _⟩ | ⟨q, h, _⟩ | h
    · rw [hend.1] at h; simp at h
    · rw [hend.2] at h; simp at h
    · rw [hend.1] at h; simp at h
    · rw [hend.2] at h; simp at h
    · exact h
  obtain ⟨l, hl, he⟩ := nodes_eq b ω (h := n₂.hosts c) h2.std
  refine ⟨l, hl, ?_⟩
  have : entry r' ∈ l.map entry := by rw [he]; exact List.mem_map.mpr ⟨r', hr', rfl⟩
  obtain ⟨r, hr, hre⟩ := List.mem_map.mp this
  refine ⟨r, hr, ?_, ?_⟩
  · have : r.addr = r'.addr := congrArg Prod.fst hre
    rw [this]; exact ha
  · rw [← hcs, ← hre]; rfl

/-! ### A concrete case -/

/-- A working interface with the given address. -/
def upIf (a : IpAddr) : IfOutcome := ⟨a, fun _ => true, true⟩

/-- Starting a node on one working interface. -/
theorem start_up {n : Node S} (hi : ProfileInv n) (htr : n.transport = Manager.new) (hlen : n.objects.length ≤ 85)
    (x : UInt32) : ∃ r n' outs, n.start [upIf (.v4 x)] [upIf (.v4 x)] allOk = .ok (r, n', outs) ∧
      (∀ u ∈ replies outs, SizesOk u) ∧
      n'.transport = ⟨[⟨.v4 x, n.observers, .running⟩], [⟨.v4 x, n.observers, .running⟩]⟩ := by
  have hst : Node.startTransport [upIf (.v4 x)] [upIf (.v4 x)] Manager.new =
      .ok (true, ⟨[⟨.v4 x, [], .running⟩], [⟨.v4 x, [], .running⟩]⟩) := by
    rfl
  obtain ⟨r, hr⟩ : ∃ r, n.start [upIf (.v4 x)] [upIf (.v4 x)] allOk = .ok r := by
    unfold Node.start
    rw [htr, hst]
    simp only [Res.bind_ok, Bool.not_true, Bool.false_eq_true, if_false]
    split <;> exact ⟨_, rfl⟩
  obtain ⟨r, n', outs⟩ := r
  refine ⟨r, n', outs, hr, ?_, ?_⟩
  · have hst' : n.step .dev (.start [upIf (.v4 x)] [upIf (.v4 x)] allOk) = .ok (n', outs) := by
      simp only [Node.step, hr, Res.bind_ok, Res.pure_eq]
    obtain ⟨hi', hcodes⟩ := step_inv (op := .start [upIf (.v4 x)] [upIf (.v4 x)] allOk) hi trivial hst'
    obtain ⟨up, m, h1, ⟨_, _, _, h2⟩ | ⟨_, n₀, _, _, h4, h5⟩⟩ := start_result hr
    · rw [h2]; simp [replies, handed]
    · have hobj : n'.objects = n₀.objects := by rw [h4, (announce_frame allOk n₀).1]
      have hl : n'.objects.length = n.objects.length := by
        have := congrArg List.length hcodes
        simpa [addedCodes] using this
      obtain ⟨np, ds, ho, hcode, _, hdesc⟩ := hi'.shape
      have hf : findObject n₀.objects nodeProfileCode = some np := by
        rw [← hobj, ho]; exact findObject_append (pre := []) (by simp) hcode
      obtain ⟨p, hp, hpd⟩ := hdesc 0xD5 _ rfl
      have hfind : np.findProperty 0xD5 = some p := hp
      have hpl : p.data.length ≤ 255 := by
        rw [hpd, List.length_cons, flatMap_be_length]
        have h1 : (deviceCodes (n'.objects.map Object.code)).length ≤ ds.length := by
          rw [ho, List.map_cons, hcode]
          unfold deviceCodes
          rw [List.filter_cons, if_neg (by simp)]
          exact Nat.le_trans (List.length_filter_le _ _) (by simp)
        have h2 : ds.length + 1 = n.objects.length := by rw [← hl, ho]; rfl
        omega
      rw [h5]
      unfold Node.announce
      simp only [hf, hfind]
      intro u hu
      simp only [Node.notify] at hu
      unfold replies at hu
      rw [handed_handed_cons] at hu
      simp only [List.map_cons, List.map_nil, List.mem_cons, List.not_mem_nil, or_false] at hu
      subst hu
      have hfld := updateTid_fields n₀ (Node.announceMessage np p)
      unfold SizesOk
      rw [hfld.2.2.2.1, hfld.2.2.2.2.1, hfld.2.2.2.2.2.1]
      refine ⟨⟨show (1 : Nat) ≤ 255 by decide, ?_⟩, ⟨show (0 : Nat) ≤ 255 by decide, by intro q hq; simp [Node.announceMessage, Message.addProperty, Message.setSeoj, Message.setDeoj, Message.setEsv, Message.new] at hq⟩, ⟨show (0 : Nat) ≤ 255 by decide, by intro q hq; simp [Node.announceMessage, Message.addProperty, Message.setSeoj, Message.setDeoj, Message.setEsv, Message.new] at hq⟩⟩
      intro q hq
      have hq' : q = p.toWire := by
        simpa [Node.announceMessage, Message.addProperty, Message.setSeoj, Message.setDeoj, Message.setEsv, Message.new] using hq
      rw [hq']; exact hpl
  · obtain ⟨up, m, h1, ⟨h2, _⟩ | ⟨_, n₀, h3, _, h4, _⟩⟩ := start_result hr
    · rw [htr, hst] at h1
      simp only [Res.ok.injEq, Prod.mk.injEq] at h1
      rw [← h1.1] at h2; simp at h2
    · rw [htr, hst] at h1
      simp only [Res.ok.injEq, Prod.mk.injEq] at h1
      rw [h4, (announce_frame allOk n₀).1, h3, ← h1.2]
      simp only [addObservers_eq, List.map_cons, List.map_nil, List.nil_append]

/-- A history of calls on the node of host `i`, none of them transmitting anything that arrives. -/
theorem honest_run {b : Build} {db : Database} {own : IpAddr → Option Nat} {nF : Net S} {i : Nat} (ops : List (Op S))
    (hops : ∀ op ∈ ops, Net.IsApi (.node op) ∧ ∀ n, HonestOp own i n (.node op)) {x : Net S} (hx : Honest b db own nF x)
    {n' : Node S} {outs : List Out} (hrun : (x.hosts i).node.run b ops = .ok (n', outs))
    (hz : ∀ u ∈ replies outs, SizesOk u) :
    ∃ x', Honest b db own nF x' ∧ x'.hosts i = { x.hosts i with node := n' } ∧ (∀ k, k ≠ i → x'.hosts k = x.hosts k) ∧
      x'.flying = x.flying ∧ x'.busy = x.busy ∧ x'.poisoned = x.poisoned := by
  induction ops generalizing x outs with
  | nil =>
    simp only [Node.run, Res.ok.injEq, Prod.mk.injEq] at hrun
    exact ⟨x, hx, by rw [← hrun.1], fun _ _ => rfl, rfl, rfl, rfl⟩
  | cons op ops ih =>
    obtain ⟨n₁, o₁, o₂, h1, h2, rfl⟩ := run_cons.mp hrun
    have hz' : ∀ u, (u ∈ replies o₁ → SizesOk u) ∧ (u ∈ replies o₂ → SizesOk u) := by
      intro u
      constructor <;> intro hu <;> apply hz <;> unfold replies at * <;> rw [handed_append] <;> simp at hu ⊢
      · obtain ⟨a, ha⟩ := hu; exact Or.inl ⟨a, ha⟩
      · obtain ⟨a, ha⟩ := hu; exact Or.inr ⟨a, ha⟩
    have hstep : (x.hosts i).step b db (.node op) = .ok ({ x.hosts i with node := n₁ }, o₁) := by
      simp only [Host.step, h1, Res.bind_ok, Res.pure_eq]
    have e1 := Honest.api hx (Net.Api.mk _ _ [] (hops op (by simp)).1 hstep (by intro p hp; simp at hp))
      ((hops op (by simp)).2 _) (fun u hu => (hz' u).1 hu)
    have hself : (x.setHost i { x.hosts i with node := n₁ }).hosts i = { x.hosts i with node := n₁ } := by
      unfold Net.setHost; simp
    obtain ⟨x', g1, g2, g3, g4, g5, g6⟩ := ih (fun op hop => hops op (by simp [hop])) e1
      (by show ((x.setHost i { x.hosts i with node := n₁ }).hosts i).node.run b ops = _
          rw [hself]; exact h2) (fun u hu => (hz' u).2 hu)
    refine ⟨x', g1, ?_, ?_, by rw [g4]; simp, by rw [g5]; rfl, by rw [g6]; rfl⟩
    · rw [g2]
      show { (x.setHost i { x.hosts i with node := n₁ }).hosts i with node := n' } = _
      rw [hself]
    · intro k hk
      rw [g3 k hk]
      show (x.setHost i { x.hosts i with node := n₁ }).hosts k = _
      unfold Net.setHost; simp [hk]

/-- Addresses of the example: host 0 is 192.168.0.1, host 1 is 192.168.0.2. -/
def exOwn (a : IpAddr) : Option Nat :=
  if a = .v4 0xC0A80001 then some 0 else if a = .v4 0xC0A80002 then some 1 else none

/-- Non-vacuity of C75 (and C73): there is a network, reached by an honest execution and at rest, in which host 0 is a
running controller and host 1 a running node with one device; a search of host 0 reaches host 1; and there is a reliable
execution after which host 0 lists host 1 with its device. -/
example : ∃ (db : Database) (nF n₀ n₁ n₂ : Net Unit) (outs : List Out) (l : List RemoteNode) (r : RemoteNode),
    standardDb .dev .ascending = .ok db ∧ Fresh .dev db nF ∧ Honest .dev db exOwn nF n₀ ∧
    n₀.flying = [] ∧ n₀.busy = [] ∧ codesOf (n₀.hosts 1).node = [0x0EF001, 0x029001] ∧
    Net.Api .dev db n₀ 0 (.search profileCode allOk) outs n₁ ∧ n₁.flying.length = 1 ∧
    Reliably .dev db exOwn n₁ n₂ ∧ n₂.flying = [] ∧ n₂.busy = [] ∧ (n₂.hosts 0).nodes .dev .ascending = .ok l ∧
    r ∈ l ∧ exOwn r.addr.ip = some 1 ∧ r.objects.map (fun o => o.code.toNat) = [0x029001, 0x0EF001] := by
  obtain ⟨db, hdb, _⟩ := C21_builds .dev .ascending
  obtain ⟨nd, hnd, hinv, hcode, hobs, _, htr, _, htid, _, np, hnp, _⟩ := newNode_inv (S := Unit) hdb (uuid₁ := List.replicate 16 0)
    (uuid₂ := List.replicate 16 0) (by simp) (by simp) .ascending ()
  have hk : KeysOk (Object.fromCode 0x029001) := fromCode_keysOk _
  let nF : Net Unit := ⟨fun i => if i = 0 then Host.newController nd else Host.ofNode nd, [], [], fun _ _ => false, fun _ => false⟩
  have hF : Fresh .dev db nF := ⟨rfl, rfl, fun i => ⟨_, _, _, (), nd, by simp, by simp, hnd, by
    by_cases h : i = 0
    · subst h; exact Or.inr rfl
    · exact Or.inl (by show (if i = 0 then _ else _) = _; rw [if_neg h])⟩, fun _ _ => rfl⟩
  -- host 1
  obtain ⟨hi₀, hc₀⟩ := inv_same_objects (n' := nd.addObserver .node) hinv rfl rfl
  obtain ⟨m₁, hm₁⟩ : ∃ n₁, (nd.addObserver .node).addObject .dev (Object.fromCode 0x029001) = .ok n₁ := by
    obtain ⟨np', os, ho, hc, _⟩ := hi₀.shape
    exact ⟨_, updateNodeProfile_eq .dev ({ nd.addObserver .node with objects := ((nd.addObserver .node).objects ++ [Object.fromCode 0x029001]) } : Node Unit)
      (np := np') (ds := os ++ [Object.fromCode 0x029001]) (show (nd.addObserver .node).objects ++ [_] = _ by rw [ho]; rfl) hc⟩
  have hs₁ : (nd.addObserver .node).step .dev (.addObject (Object.fromCode 0x029001)) = .ok (m₁, []) := by
    simp only [Node.step, hm₁, Res.bind_ok, Res.pure_eq]
  obtain ⟨hi₁, hc₁⟩ := step_inv (op := .addObject (Object.fromCode 0x029001)) hi₀ hk hs₁
  have hf₁ := addObject_frame hm₁
  have hcm : m₁.objects.map Object.code = [profileCode, (Object.fromCode 0x029001).code] := by
    rw [hc₁, hc₀, hcode]; rfl
  have hlm : m₁.objects.length = 2 := by have := congrArg List.length hcm; simpa using this
  obtain ⟨r₁, k₁, o₁, hst₁, hz₁, ht₁⟩ := start_up hi₁ (by rw [hf₁]; exact htr) (by omega) 0xC0A80002
  have hs₂ : m₁.step .dev (.start [upIf (.v4 0xC0A80002)] [upIf (.v4 0xC0A80002)] allOk) = .ok (k₁, o₁) := by
    simp only [Node.step, hst₁, Res.bind_ok, Res.pure_eq]
  obtain ⟨_, hck⟩ := step_inv (op := .start [upIf (.v4 0xC0A80002)] [upIf (.v4 0xC0A80002)] allOk) hi₁ trivial hs₂
  have hrun₁ : (nF.hosts 1).node.run .dev [.addObserver .node, .addObject (Object.fromCode 0x029001),
      .start [upIf (.v4 0xC0A80002)] [upIf (.v4 0xC0A80002)] allOk] = .ok (k₁, o₁) := by
    refine run_cons.mpr ⟨nd.addObserver .node, [], o₁, rfl, run_cons.mpr ⟨m₁, [], o₁, hs₁, run_cons.mpr ⟨k₁, o₁, [], hs₂, rfl, by simp⟩, rfl⟩, rfl⟩
  obtain ⟨x₁, g1, g2, g3, g4, g5, g6⟩ := honest_run (b := .dev) (db := db) (own := exOwn) (nF := nF) (i := 1) _ (by
    intro op hop
    simp only [List.mem_cons, List.not_mem_nil, or_false] at hop
    rcases hop with rfl | rfl | rfl
    · exact ⟨trivial, fun _ => trivial⟩
    · exact ⟨trivial, fun _ => hk⟩
    · refine ⟨trivial, fun _ => ?_⟩
      intro e he
      simp only [List.cons_append, List.nil_append, List.mem_cons, List.not_mem_nil, or_false, or_self] at he
      subst he; decide) .init hrun₁ hz₁
  -- host 0
  obtain ⟨hi₂, hc₂⟩ := inv_same_objects (n' := controllerNodeNew nd) hinv rfl rfl
  have hln : nd.objects.length = 1 := by rw [hnp]; rfl
  obtain ⟨r₂, k₂, o₂, hst₂, hz₂, ht₂⟩ := start_up (n := controllerNodeNew nd) hi₂ htr
    (show nd.objects.length ≤ 85 by omega) 0xC0A80001
  have hs₃ : (controllerNodeNew nd).step .dev (.start [upIf (.v4 0xC0A80001)] [upIf (.v4 0xC0A80001)] allOk) = .ok (k₂, o₂) := by
    simp only [Node.step, hst₂, Res.bind_ok, Res.pure_eq]
  obtain ⟨_, hck₂⟩ := step_inv (op := .start [upIf (.v4 0xC0A80001)] [upIf (.v4 0xC0A80001)] allOk) hi₂ trivial hs₃
  have hx₁0 : x₁.hosts 0 = Host.newController nd := by rw [g3 0 (by decide)]; rfl
  obtain ⟨x₂, f1, f2, f3, f4, f5, f6⟩ := honest_run (b := .dev) (db := db) (own := exOwn) (nF := nF) (i := 0)
    [.start [upIf (.v4 0xC0A80001)] [upIf (.v4 0xC0A80001)] allOk] (by
    intro op hop
    simp only [List.mem_cons, List.not_mem_nil, or_false] at hop
    subst hop
    refine ⟨trivial, fun _ => ?_⟩
    intro e he
    simp only [List.cons_append, List.nil_append, List.mem_cons, List.not_mem_nil, or_false, or_self] at he
    subst he; decide) g1 (n' := k₂) (outs := o₂) (by
      rw [hx₁0]
      exact run_cons.mpr ⟨k₂, o₂, [], hs₃, rfl, by simp⟩) hz₂
  have hobs₂ : (controllerNodeNew nd).observers = [.node, .controller] := by
    show (nd.observers ++ [_]) ++ [_] = _; rw [hobs]; rfl
  have hobs₁ : m₁.observers = [.node] := by
    rw [hf₁]; show nd.observers ++ [_] = _; rw [hobs]; rfl
  rw [hobs₂] at ht₂
  rw [hobs₁] at ht₁
  have h0 : (x₂.hosts 0).node = k₂ := by rw [f2]
  have h1 : (x₂.hosts 1).node = k₁ := by rw [f3 1 (by decide), g2]
  have hother : ∀ i, i ≠ 0 → i ≠ 1 → x₂.hosts i = Host.ofNode nd := by
    intro i hi0 hi1
    rw [f3 i hi0, g3 i hi1]; show (if i = 0 then _ else _) = _; rw [if_neg hi0]
  have e1 : ∀ k : Node Unit, codesOf k = (k.objects.map Object.code).map UInt32.toNat := by
    intro k; unfold codesOf; rw [List.map_map]; rfl
  have hcodes1 : codesOf (x₂.hosts 1).node = [0x0EF001, 0x029001] := by
    rw [e1, h1, hck, hcm]; decide
  -- the search
  have hsr := C49_search allOk (x₂.hosts 0) nodeProfileCode
  simp only [] at hsr
  have hifs := hsr.2.1 (by
    simp only [Host.searchObject, Node.notify]
    rw [Node.updateTid_transport, h0, ht₂]; rfl)
  rw [h0, ht₂] at hifs
  obtain ⟨t, ht⟩ : ∃ t, txs ((x₂.hosts 0).searchObject allOk nodeProfileCode).2.2 = [t] := by
    have := congrArg List.length hifs
    rw [List.length_map] at this
    exact List.length_eq_one_iff.mp this
  rw [ht] at hifs
  simp only [List.map_cons, List.map_nil, List.cons.injEq, and_true] at hifs
  have hsearch := Net.Api.mk (b := .dev) (db := db) (n := x₂) (i := 0) (op := .search profileCode allOk)
    ((x₂.hosts 0).searchObject allOk profileCode).2.1 ((x₂.hosts 0).searchObject allOk profileCode).2.2
    [⟨⟨.v4 0xC0A80001, 3610⟩, 1, 0, t.bytes⟩] trivial rfl (by
      intro p hp
      rw [List.mem_singleton.mp hp]
      exact ⟨t, mem_txs.mpr (by show t ∈ txs ((x₂.hosts 0).searchObject allOk nodeProfileCode).2.2; rw [ht]; simp), rfl, hifs.symm⟩)
  obtain ⟨n₂, hrel, hend⟩ := (C75_progress .dev db exOwn).2.2 _
  have hl1 : (x₂.hosts 1).threads = [⟨.v4 0xC0A80002, [.node], .running⟩, ⟨.v4 0xC0A80002, [.node], .running⟩] := by
    unfold Host.threads; rw [h1, ht₁]; rfl
  have hl0 : (x₂.hosts 0).threads = [⟨.v4 0xC0A80001, [.node, .controller], .running⟩, ⟨.v4 0xC0A80001, [.node, .controller], .running⟩] := by
    unfold Host.threads; rw [h0, ht₂]; rfl
  obtain ⟨l, hl, r, hr, hra, hrc⟩ := C75_discovers .dev .ascending db hdb exOwn nF x₂ _ n₂ hF f1 ⟨by rw [f4, g4], by rw [f5, g5]⟩
    (fun i o => by rw [f6, g6])
    (fun i => if i = 1 then [0x029001] else []) (by
      intro i
      by_cases hi1 : i = 1
      · subst hi1; exact ⟨hcodes1, by decide, by decide⟩
      · refine ⟨?_, by simp [hi1], by simp [hi1]⟩
        rw [if_neg hi1]
        by_cases hi0 : i = 0
        · subst hi0; rw [e1, h0, hck₂, hc₂, hcode]; decide
        · rw [hother i hi0 hi1, e1]; show (nd.objects.map _).map _ = _; rw [hcode]; decide)
    0 ⟨0, _, by rw [hl0]; rfl, rfl⟩ (by rw [hl0]; intro s hs; simp at hs; subst hs; simp) allOk _ hsearch 1
    (by rw [h1, ht₁]; simp) (by rw [hl1]; intro s hs; simp at hs; subst hs; simp)
    ⟨_, List.mem_append.mpr (Or.inr (List.mem_singleton.mpr rfl)), rfl, _, by rw [hl1]; rfl, rfl⟩ hrel hend .ascending
  exact ⟨db, nF, x₂, _, n₂, _, l, r, hdb, hF, f1, by rw [f4, g4], by rw [f5, g5], hcodes1, hsearch,
    by show (x₂.flying ++ _).length = 1; rw [f4, g4]; rfl, hrel, hend.1, hend.2, hl, hr, hra, hrc⟩
end Uecho
