import Verif.Props.Controller
/-!
# Discovery end to end: C23, C24, C58
-/
namespace Uecho
open Spec
variable {S : Type}

/-- A valid frame that fits into the receive buffer is handed to the observers. -/
theorem recv_frame (f : Frame) (hv : f.Valid) (hlen : f.encode.length ≤ 1024) (src : SocketAddr) :
    ∃ m, recvLoop [.datagram f.encode src] = ([m], .running) ∧ m.sender = src ∧ m.isFormat1 = true ∧
      m.tid.toNat = f.tid ∧ m.seoj.toNat = f.seoj ∧ m.deoj.toNat = f.deoj ∧ m.esvByte = f.esv ∧
      match f.body with
      | .single ps => m.properties = ps ∧ m.setProperties = [] ∧ m.getProperties = []
      | .setGet s g => m.properties = [] ∧ m.setProperties = s ∧ m.getProperties = g := by
  obtain ⟨m', h1, h2, h3, h4, h5, h6, _, h8⟩ := Message.parse_complete Message.new f [] hv
  rw [List.append_nil] at h1
  refine ⟨m'.setFrom src, ?_, rfl, h2, h3, h4, h5, h6, ?_⟩
  · unfold recvLoop
    have : f.encode.take maxPacketSize = f.encode := List.take_of_length_le hlen
    rw [this, h1]
    rfl
  · cases hb : f.body with
    | single ps => rw [hb] at h8; exact h8
    | setGet s g => rw [hb] at h8; exact h8

theorem objectCodes_flatMap (l : List UInt32) (h : ∀ c ∈ l, c.toNat < 2 ^ 24) :
    objectCodes (l.flatMap (fun x => be 3 x.toNat)) = l.map UInt32.toNat := by
  induction l with
  | nil => rfl
  | cons c l ih =>
    have hc := h c (by simp)
    rw [List.flatMap_cons, List.map_cons, ← ih (fun c hc => h c (by simp [hc]))]
    have hb := beVal_be 3 c.toNat
    obtain ⟨x, y, z, hx⟩ : ∃ x y z, be 3 c.toNat = [x, y, z] := ⟨_, _, _, rfl⟩
    rw [hx] at hb ⊢
    show beVal [x, y, z] :: objectCodes _ = _
    rw [hb, Nat.mod_eq_of_lt (by omega)]
    rfl

theorem flatMap_be_length (l : List UInt32) (k : Nat) : (l.flatMap (fun x => be k x.toNat)).length = k * l.length := by
  induction l with
  | nil => rfl
  | cons c l ih => rw [List.flatMap_cons, List.length_append, ih, be_length, List.length_cons, Nat.mul_succ]; omega

/-- A node answers a read request for 0xD6 of its node profile with its instance list. -/
theorem profile_read {b : Build} (ω : HashOrder) (ok : Nat → Bool) {n : Node S} (hi : ProfileInv n)
    (hone : ∀ np ds, n.objects = np :: ds → ∀ o ∈ ds, o.code ≠ profileCode) {msg : Message}
    (hesv : msg.esvByte = 0x62) (hdeoj : msg.deoj = profileCode) (hprops : msg.properties = [⟨0xD6, []⟩]) :
    ∃ n' outs u d, n.observe b ω ok msg = .ok (n', outs) ∧ replies outs = [u] ∧
      profileData (n.objects.map Object.code) (n.objects.length - 1) 0xD6 = some d ∧
      HasHeader u (if msg.tid = 0 then n.lastTid + 1 else msg.tid) msg.deoj msg.seoj 0x72 ∧
      u.properties = [⟨0xD6, d⟩] ∧
      txs outs = (n.transport.send ok ⟨msg.sender.ip, port⟩ u).2 ∧ deliveries outs = [] := by
  obtain ⟨np, ds, ho, hcode, hself, hdesc⟩ := hi.shape
  have hr : isRequestByte msg.esvByte = true := by rw [hesv]; rfl
  have ht : Targets n msg [] np ds := ⟨ho, by simp, by rw [hcode, hdeoj]⟩
  have hesv' : msg.esv = .ReadRequest := by unfold Message.esv; rw [hesv]; rfl
  -- no panic
  obtain ⟨r, hr1⟩ : ∃ r, n.observe b ω ok msg = .ok r := by
    have hl : n.isLastMessageResponse msg = false := by
      unfold Node.isLastMessageResponse
      rw [hesv']; rfl
    have hp : n.observePost msg = .ok (n, []) := by
      unfold Node.observePost; rw [hl]; rfl
    obtain ⟨r, hm⟩ := Node.messageReceived_no_panic (b := b) (ω := ω) (n := n) (req := msg) (by
      intro o hmem hoc
      rw [ho] at hmem
      rcases List.mem_cons.mp hmem with rfl | hmem
      · exact Or.inr hself.1
      · exact absurd (hoc.trans hdeoj) (hone _ _ ho o hmem))
    unfold Node.observe
    simp only [hp, Res.bind_ok, hm]
    cases r.1 with
    | none => exact ⟨_, rfl⟩
    | some res =>
      simp only []
      split
      · split <;> exact ⟨_, rfl⟩
      · exact ⟨_, rfl⟩
  obtain ⟨n', outs⟩ := r
  have hkeys := hi.keys
  obtain ⟨copy, hs, hcc, hacc, _⟩ := C26_accept_iff b ω ok n n' msg outs [] ds np ht (hi.keys np (by rw [ho]; simp)) hr hr1
  obtain ⟨p6, hp6, _, hread⟩ := hself.2 0xD6 (by decide)
  have hA : Accepted n msg np copy := by
    refine ⟨⟨?_, ?_⟩, Or.inr ?_⟩
    · intro w hw
      unfold writesOf at hw
      rw [hesv] at hw
      simp at hw
    · intro w hw
      unfold readsOf at hw
      rw [hesv, hprops] at hw
      simp at hw
      subst hw
      exact ⟨p6, hp6, hread rfl⟩
    · obtain ⟨hs', hh⟩ := hi.builtin
      rw [hh]
      refine Or.inl ?_
      rw [hprops]
      refine ⟨?_, trivial⟩
      obtain ⟨q, hq, _⟩ := hs.symm.some hp6
      have hcp : copy.code = nodeProfileCode := by rw [hcc, hcode]; rfl
      unfold nodeHandler
      rw [if_neg (by simp [hcp]), hesv']
      have hq' : copy.findProperty 0xD6 = some q := hq
      simp [hq']
  have hrep := hacc hA
  rw [hesv] at hrep
  obtain ⟨u, hu, hue⟩ : ∃ u, replies outs = [u] ∧ u.esvByte = 0x72 := by
    match hl : replies outs, hrep with
    | [u], hrep => exact ⟨u, rfl, by simpa [successByte] using hrep⟩
    | [], hrep => simp [successByte] at hrep
    | _ :: _ :: _, hrep => simp [successByte] at hrep
  have hmem : u ∈ replies outs := by rw [hu]; simp
  obtain ⟨_, _, hdel, _, svc, hhead, htx, _⟩ := Node.reply_cases hkeys hr1 hmem
  have hsvc : svc = 0x72 := by rw [← hhead.esv, hue]
  subst hsvc
  obtain ⟨o', hf, hex, h29, _⟩ := C29_read_returns_data b ω ok n n' msg outs hkeys hr1 u hmem (by rw [hue]; rfl)
  obtain ⟨hinv', hcodes'⟩ := step_inv (op := .receive msg true ω ok) hi trivial (n' := n') (outs := outs) (by
    show n.observeTry b ω ok true msg = _
    unfold Node.observeTry; exact hr1)
  have hcodes' : n'.objects.map Object.code = n.objects.map Object.code := by
    rw [hcodes']; simp [addedCodes]
  obtain ⟨np', ds', ho', hc', _, hdesc'⟩ := hinv'.shape
  have hf' : findObject n'.objects msg.deoj = some np' := by
    rw [ho', hdeoj]; exact findObject_append (pre := []) (by simp) hc'
  rw [hf'] at hf
  simp only [Option.some.injEq] at hf
  subst hf
  rw [hcodes'] at hdesc'
  obtain ⟨d, hd⟩ : ∃ d, profileData (n.objects.map Object.code) ((n.objects.map Object.code).length - 1) 0xD6 = some d :=
    ⟨_, rfl⟩
  obtain ⟨p, hp, hpd⟩ := hdesc' 0xD6 d hd
  refine ⟨n', outs, u, d, hr1, hu, by simpa using hd, hhead, ?_, ?_, hdel⟩
  · rw [h29 (Or.inl hesv), hprops]
    unfold dataOf
    simp [hp, hpd]
  · rw [htx]; rfl

/-- The codes of the objects added in a history are codes of objects. -/
theorem addedCodes_lt (ops : List (Op S)) : ∀ c ∈ addedCodes ops, c.toNat < 2 ^ 24 := by
  intro c hc
  obtain ⟨op, _, h⟩ := List.mem_filterMap.mp hc
  cases op <;> simp at h
  subst h
  exact code_lt _

/-! ## C23 -/

/-- C23: a device node with any history and at most 84 added objects, and a controller with any history.
Every datagram of the controller's search, received by the node from `csrc`, makes the node hand exactly
one reply to its transport, addressed to `csrc`'s IP at port 3610; it goes out iff some unicast socket
works. Every such datagram, received from `dsrc` by the controller's receive loop at any later time and
processed while the controller is free, makes the controller's only entry for `dsrc` (at the end of its
list) one with exactly the object codes added to the node, in order, and the node profile. -/
theorem C23_discovery (b : Build) (ω₀ : HashOrder) (db : Database) (hdb : standardDb b ω₀ = .ok db)
    -- the device node
    (uuid₁ uuid₂ : List UInt8) (hu₁ : uuid₁.length = 16) (hu₂ : uuid₂.length = 16) (ω : HashOrder) (app : S)
    (ops : List (Op S)) (hops : ∀ op ∈ ops, ProfileSafe op) (n₀ n : Node S) (outs₀ : List Out)
    (hnew : Node.new b db uuid₁ uuid₂ ω app = .ok n₀) (hrun : n₀.run b ops = .ok (n, outs₀))
    (hlen : (addedCodes ops).length ≤ 84) (hdev : ∀ c ∈ addedCodes ops, c ≠ profileCode)
    -- the controller and its search
    {S' : Type} (h : Host S') (okc : Nat → Bool) (t : Tx) (ht : t ∈ txs (h.search okc).2.2)
    (csrc dsrc : SocketAddr) (ω' : HashOrder) (ok : Nat → Bool) :
    ∃ req n' outs, recvLoop [.datagram t.bytes csrc] = ([req], .running) ∧
      n.observe b ω' ok req = .ok (n', outs) ∧ (replies outs).length = 1 ∧
      (txs outs ≠ [] ↔ ∃ i, i < n.transport.ucast.length ∧ ok i = true) ∧
      ∀ t' ∈ txs outs, t'.to = ⟨csrc.ip, 3610⟩ ∧
        ∃ res, recvLoop [.datagram t'.bytes dsrc] = ([res], .running) ∧
          ∀ (c : Host S') (e : CallEnv), e.ctrlFree = true → (∀ i, (e.uuid i).length = 16) →
            ∃ c' r, c.invoke b db e res .controller = .ok (c', []) ∧
              c'.remotes = c.remotes.eraseP (fun x => x.addr = dsrc) ++ [r] ∧
              r.addr = dsrc ∧
              r.objects.map (fun o => o.code.toNat) = (addedCodes ops).map UInt32.toNat ++ [0x0EF001] := by
  -- the request
  have hsearch := (C49_search okc h nodeProfileCode).1 t ht
  obtain ⟨req, hrecv, hsrc, _, _, hseoj, hdeoj, hesv, hprops, _, _⟩ :=
    recv_frame ⟨(h.node.lastTid + 1).toNat, 0x0EF001, nodeProfileCode.toNat % 2 ^ 24, 0x62, .single [⟨0xD6, []⟩]⟩
      (by
        exact ⟨UInt16.toNat_lt _, show (0x0EF001 : Nat) < 2 ^ 24 by decide,
          show nodeProfileCode.toNat % 2 ^ 24 < 2 ^ 24 by decide, show isWriteReadByte 0x62 = false by decide,
          by decide⟩)
      (by simp [Frame.encode, be_length, Body.encode, encList, encProp]) csrc
  rw [← hsearch.2] at hrecv
  have hseoj' : req.seoj = 0x0EF001 := UInt32.toNat.inj hseoj
  have hdeoj' : req.deoj = profileCode := UInt32.toNat.inj hdeoj
  -- the node
  obtain ⟨n₁, h1, hinv, hcodes, _⟩ := newNode_inv hdb hu₁ hu₂ ω app
  rw [hnew] at h1
  simp only [Res.ok.injEq] at h1
  subst h1
  obtain ⟨hi, hc⟩ := run_inv hinv hops hrun
  rw [hcodes] at hc
  obtain ⟨n', outs, u, d, hobs, hu, hd, hhead, hup, htx, _⟩ := profile_read (b := b) ω' ok hi
    (by
      intro np ds ho o ho'
      rw [ho, List.map_cons] at hc
      simp only [List.singleton_append, List.cons.injEq] at hc
      exact hdev _ (by rw [← hc.2]; exact List.mem_map_of_mem ho'))
    hesv hdeoj' hprops
  have hlen' : n.objects.length = (addedCodes ops).length + 1 := by
    have := congrArg List.length hc
    simpa using this
  have hd' : d = UInt8.ofNat (addedCodes ops).length :: (addedCodes ops).flatMap (fun x => be 3 x.toNat) := by
    rw [hc, hlen'] at hd
    have : profileData ([profileCode] ++ addedCodes ops) ((addedCodes ops).length + 1 - 1) 0xD6 =
      some (UInt8.ofNat (addedCodes ops).length ::
        (deviceCodes (profileCode :: addedCodes ops)).flatMap (fun x => be 3 x.toNat)) := rfl
    rw [this, deviceCodes_eq hdev] at hd
    exact (Option.some.inj hd).symm
  have hdlen : d.length = 3 * (addedCodes ops).length + 1 := by
    rw [hd', List.length_cons, flatMap_be_length]
  refine ⟨req, n', outs, hrecv, hobs, by rw [hu]; rfl, ?_, ?_⟩
  · rw [htx]
    have hsend := C44_send ok n.transport ⟨req.sender.ip, port⟩ u
    rw [← hsend.1]
    rcases Manager.send_cases ok n.transport ⟨req.sender.ip, port⟩ u with ⟨h1, h2⟩ | ⟨h1, s, _, h2⟩ <;> simp [h1, h2]
  · intro t' ht'
    rw [htx] at ht'
    have ht'' : t'.to = ⟨req.sender.ip, port⟩ ∧ t'.bytes = u.bytes := by
      rcases Manager.send_cases ok n.transport ⟨req.sender.ip, port⟩ u with ⟨_, h2⟩ | ⟨_, s, _, h2⟩
      · rw [h2] at ht'; simp at ht'
      · rw [h2] at ht'
        rw [List.mem_singleton.mp ht']; exact ⟨rfl, rfl⟩
    refine ⟨by rw [ht''.1, hsrc]; rfl, ?_⟩
    have hub : u.bytes = Frame.encode ⟨u.tid.toNat, u.seoj.toNat, 0x0EF001, 0x72, .single [⟨0xD6, d⟩]⟩ := by
      rw [Message.bytes_eq_encode u hhead.fmt (by rw [hhead.esv]; decide)]
      unfold frameOf
      rw [hhead.esv, hhead.deoj, hseoj', hup]
      rfl
    obtain ⟨res, hrecv', hsrc', _, _, _, hdeoj', hesv', hprops', _, _⟩ :=
      recv_frame ⟨u.tid.toNat, u.seoj.toNat, 0x0EF001, 0x72, .single [⟨0xD6, d⟩]⟩
        ⟨UInt16.toNat_lt _, Message.objectCode_lt _, show (0x0EF001 : Nat) < 2 ^ 24 by decide,
          show isWriteReadByte 0x72 = false by decide, show (1 : Nat) ≤ 255 by decide, by
          intro p hp; rw [List.mem_singleton.mp hp]; show d.length ≤ 255; omega⟩
        (by
          simp only [Frame.encode, List.length_append, be_length, Body.encode, encList, encProp, List.length_cons,
            List.length_nil, List.flatMap_cons, List.flatMap_nil]
          omega) dsrc
    rw [← hub, ← ht''.2] at hrecv'
    refine ⟨res, hrecv', ?_⟩
    intro c e he huu
    have hpm : IsProfileMessage res := ⟨Or.inl hesv', Or.inl (UInt32.toNat.inj hdeoj')⟩
    obtain ⟨r, hr1, hr2, _⟩ := observeController_profile hdb e.ω e.uuid huu c.remotes hpm
    simp only [entry, Prod.mk.injEq] at hr2
    refine ⟨{ c with remotes := replaceRemoteNode c.remotes r }, r, ?_, ?_, by rw [hr2.1, hsrc'], ?_⟩
    · simp only [Host.invoke, he, hr1, Res.bind_ok, Res.pure_eq]
    · show c.remotes.eraseP (fun f => f.eq r) ++ [r] = _
      congr 2
      funext x
      unfold RemoteNode.eq
      rw [hr2.1, hsrc']
      rfl
    · rw [hr2.2]
      congr 1
      unfold announcedCodes
      rw [hprops']
      simp only [List.flatMap_cons, List.flatMap_nil, List.append_nil]
      rw [hd']
      unfold listedCodes
      simp only []
      have hk : (UInt8.ofNat (addedCodes ops).length).toNat = (addedCodes ops).length := by
        simp [UInt8.toNat_ofNat']; omega
      rw [if_pos ⟨trivial, by rw [hk, flatMap_be_length]; omega⟩]
      exact objectCodes_flatMap _ (addedCodes_lt ops)

/-- A controller that can search: its node runs on two interfaces. -/
def exController : Host Unit := ⟨⟨exTransport, [], 0, none, 0, [], [], ()⟩, [], []⟩

/-- Two devices. -/
def exDevices : List Object := [Object.fromCode 0x029001, Object.fromCode 0x028803]

/-- Non-vacuity of C23 (and of C24): a new node to which two objects are added (the history succeeds, and
they are what is counted); the search of a controller puts two datagrams on the wire. -/
example (b : Build) (ω₀ : HashOrder) :
    ∃ db n₀ n, standardDb b ω₀ = .ok db ∧
      Node.new b db (List.replicate 16 1) (List.replicate 16 2) .ascending () = .ok n₀ ∧
      n₀.run b (exDevices.map Op.addObject) = .ok (n, []) ∧
      (∀ op ∈ (exDevices.map Op.addObject : List (Op Unit)), ProfileSafe op) ∧
      addedCodes (exDevices.map Op.addObject : List (Op Unit)) = [0x029001, 0x028803] ∧
      (txs (exController.search allOk).2.2).length = 2 := by
  obtain ⟨db, hdb, _⟩ := C21_builds b ω₀
  have hk : ∀ o ∈ exDevices, KeysOk o := by
    intro o ho
    simp only [exDevices, List.mem_cons, List.not_mem_nil, or_false] at ho
    rcases ho with rfl | rfl <;> exact fromCode_keysOk _
  obtain ⟨n₀, n, h1, h2⟩ := C22_add_never_panics b ω₀ db hdb (List.replicate 16 1) (List.replicate 16 2) rfl rfl
    .ascending () exDevices hk
  refine ⟨db, n₀, n, hdb, h1, h2, ?_, by decide +kernel, by decide +kernel⟩
  intro op hop
  obtain ⟨o, ho, rfl⟩ := List.mem_map.mp hop
  exact hk o ho

/-! ## C24 and C58: messages without an instance list S -/

/-- Any profile message without an instance list S (0xD6) makes the controller believe that its sender has
no objects but the node profile. -/
theorem invoke_no_list {b : Build} {ω₀ : HashOrder} {db : Database} (hdb : standardDb b ω₀ = .ok db) {res : Message}
    (hm : IsProfileMessage res) (hno : ∀ p ∈ res.properties, p.code ≠ 0xD6) (c : Host S) (e : CallEnv)
    (he : e.ctrlFree = true) (hu : ∀ i, (e.uuid i).length = 16) :
    ∃ c' r, c.invoke b db e res .controller = .ok (c', []) ∧
      c'.remotes = c.remotes.eraseP (fun x => x.addr = res.sender) ++ [r] ∧
      r.addr = res.sender ∧ r.objects.map (fun o => o.code.toNat) = [0x0EF001] := by
  obtain ⟨r, hr1, hr2, _⟩ := observeController_profile hdb e.ω e.uuid hu c.remotes hm
  simp only [entry, Prod.mk.injEq] at hr2
  refine ⟨{ c with remotes := replaceRemoteNode c.remotes r }, r, ?_, ?_, hr2.1, ?_⟩
  · simp only [Host.invoke, he, hr1, Res.bind_ok, Res.pure_eq]
  · show c.remotes.eraseP (fun f => f.eq r) ++ [r] = _
    congr 2
    funext x
    unfold RemoteNode.eq
    rw [hr2.1]
    rfl
  · rw [hr2.2]
    have : announcedCodes res = [] := by
      unfold announcedCodes
      rw [List.flatMap_eq_nil_iff]
      intro p hp
      unfold listedCodes
      split
      · rfl
      · rw [if_neg (fun h => hno p hp h.1)]
    rw [this]; rfl

/-- C24 is false: whatever objects a node has, each datagram of its announcement, received by a controller,
makes the controller list the node (at the end, replacing what it knew about it) with no objects except
the node profile. What holds of C24 is that the node is listed. -/
theorem C24_listed_without_devices_partial (b : Build) (ω₀ : HashOrder) (db : Database)
    (hdb : standardDb b ω₀ = .ok db)
    (uuid₁ uuid₂ : List UInt8) (hu₁ : uuid₁.length = 16) (hu₂ : uuid₂.length = 16) (ω : HashOrder) (app : S)
    (ops : List (Op S)) (hops : ∀ op ∈ ops, ProfileSafe op) (n₀ n : Node S) (outs₀ : List Out)
    (hnew : Node.new b db uuid₁ uuid₂ ω app = .ok n₀) (hrun : n₀.run b ops = .ok (n, outs₀))
    (hlen : (addedCodes ops).length ≤ 84) (hdev : ∀ c ∈ addedCodes ops, c ≠ profileCode)
    (ok : Nat → Bool) (t : Tx) (ht : t ∈ txs (n.announce ok).2.2) (dsrc : SocketAddr) :
    ∃ res, recvLoop [.datagram t.bytes dsrc] = ([res], .running) ∧
      ∀ {S' : Type} (c : Host S') (e : CallEnv), e.ctrlFree = true → (∀ i, (e.uuid i).length = 16) →
        ∃ c' r, c.invoke b db e res .controller = .ok (c', []) ∧
          c'.remotes = c.remotes.eraseP (fun x => x.addr = dsrc) ++ [r] ∧
          r.addr = dsrc ∧ r.objects.map (fun o => o.code.toNat) = [0x0EF001] := by
  obtain ⟨n₁, h1, hinv, hcodes, _⟩ := newNode_inv hdb hu₁ hu₂ ω app
  rw [hnew] at h1
  simp only [Res.ok.injEq] at h1
  subst h1
  obtain ⟨hi, hc⟩ := run_inv hinv hops hrun
  rw [hcodes] at hc
  obtain ⟨np, ds, ho, hcode, hself, hdesc⟩ := hi.shape
  have hf : findObject n.objects nodeProfileCode = some np := by
    rw [ho]; exact findObject_append (pre := []) (by simp) hcode
  have hlen' : n.objects.length = (addedCodes ops).length + 1 := by
    have := congrArg List.length hc
    simpa using this
  obtain ⟨p, hp, hpd⟩ := hdesc 0xD5 _ rfl
  have hpc : p.code = 0xD5 := hi.keys np (by rw [ho]; simp) 0xD5 p hp
  have hpl : p.data.length ≤ 255 := by
    rw [hpd, List.length_cons, hc]
    show ((deviceCodes (profileCode :: addedCodes ops)).flatMap (fun x => be 3 x.toNat)).length + 1 ≤ 255
    rw [deviceCodes_eq hdev, flatMap_be_length]
    omega
  -- the message
  have hfind : np.findProperty 0xD5 = some p := hp
  have hann : n.announce ok = ((n.notify ok (Node.announceMessage np p)).1, (n.notify ok (Node.announceMessage np p)).2.2.1,
      (n.notify ok (Node.announceMessage np p)).2.2.2) := by
    unfold Node.announce
    simp only [hf, hfind]
  have hfields := updateTid_fields n (Node.announceMessage np p)
  have htb : t.bytes = (n.updateTid (Node.announceMessage np p)).1.bytes := by
    rw [hann] at ht
    simp only [Node.notify] at ht
    rw [txs_handed_cons] at ht
    obtain ⟨k, hk, _⟩ := Manager.notify_cases ok (n.updateTid (Node.announceMessage np p)).2.transport
      (n.updateTid (Node.announceMessage np p)).1
    rw [hk] at ht
    obtain ⟨s, _, rfl⟩ := List.mem_map.mp ht
    rfl
  generalize (n.updateTid (Node.announceMessage np p)).1 = u at hfields htb
  have hmsg : (Node.announceMessage np p).isFormat1 = true ∧ (Node.announceMessage np p).esvByte = 0x73 ∧
      (Node.announceMessage np p).properties = [⟨0xD5, p.data⟩] := by
    refine ⟨rfl, rfl, ?_⟩
    show [(⟨p.code, p.data⟩ : WProperty)] = _
    rw [hpc]
  have hdeoj : (Node.announceMessage np p).deoj = 0x0EF001 :=
    UInt32.toNat.inj ((C09_header_accessors (Message.new.setEsv .Notification) 0 nodeProfileCode .Unknown).2.2.1)
  have hub : u.bytes = Frame.encode ⟨u.tid.toNat, u.seoj.toNat, 0x0EF001, 0x73, .single [⟨0xD5, p.data⟩]⟩ := by
    rw [Message.bytes_eq_encode u (hfields.2.2.2.2.2.2.1.trans hmsg.1) (by rw [hfields.2.2.1, hmsg.2.1]; decide)]
    unfold frameOf
    rw [hfields.2.2.1, hmsg.2.1, hfields.2.1, hdeoj, hfields.2.2.2.1, hmsg.2.2]
    rfl
  obtain ⟨res, hrecv', hsrc', _, _, _, hdeoj', hesv', hprops', _, _⟩ :=
    recv_frame ⟨u.tid.toNat, u.seoj.toNat, 0x0EF001, 0x73, .single [⟨0xD5, p.data⟩]⟩
      ⟨UInt16.toNat_lt _, Message.objectCode_lt _, show (0x0EF001 : Nat) < 2 ^ 24 by decide,
        show isWriteReadByte 0x73 = false by decide, show (1 : Nat) ≤ 255 by decide, by
        intro p' hp'; rw [List.mem_singleton.mp hp']; exact hpl⟩
      (by
        simp only [Frame.encode, List.length_append, be_length, Body.encode, encList, encProp, List.length_cons,
          List.length_nil, List.flatMap_cons, List.flatMap_nil]
        omega) dsrc
  rw [← hub, ← htb] at hrecv'
  refine ⟨res, hrecv', ?_⟩
  intro S' c e he hu
  have hpm : IsProfileMessage res := ⟨Or.inr hesv', Or.inl (UInt32.toNat.inj hdeoj')⟩
  have := invoke_no_list hdb hpm (by rw [hprops']; simp) c e he hu
  rwa [hsrc'] at this

/-- C58 is false: a controller reads any property other than 0xD6 of a remote object with `send_message`
(`req` is the request as the remote node decodes it); the node, whatever its state, answers with a read
response (`res` is the answer as the controller decodes it). Processing the answer makes the controller
forget all objects of that node. -/
theorem C58_fails (b : Build) (ω₀ : HashOrder) (db : Database) (hdb : standardDb b ω₀ = .ok db)
    {S' : Type} (h : Host S') (okc : Nat → Bool) (r : RemoteNode) (rd : Message)
    (hrd : rd.esvByte = 0x62) (hno : ∀ p ∈ rd.properties, p.code ≠ 0xD6)
    (req : Message) (hreq : frameOf req = frameOf (h.sendMessage okc true r rd).2.1)
    (ω : HashOrder) (ok : Nat → Bool) (n n' : Node S) (outs : List Out) (hk : ∀ o ∈ n.objects, KeysOk o)
    (hobs : n.observe b ω ok req = .ok (n', outs)) (u : Message) (hu : u ∈ replies outs) (hesv : u.esvByte = 0x72)
    (res : Message) (hres : frameOf res = frameOf u)
    (c : Host S') (e : CallEnv) (he : e.ctrlFree = true) (huu : ∀ i, (e.uuid i).length = 16) :
    ∃ c' r', c.invoke b db e res .controller = .ok (c', []) ∧
      c'.remotes = c.remotes.eraseP (fun x => x.addr = res.sender) ++ [r'] ∧
      r'.addr = res.sender ∧ r'.objects.map (fun o => o.code.toNat) = [0x0EF001] := by
  have hs := C49_send okc h r rd
  simp only [] at hs
  generalize (h.sendMessage okc true r rd).2.1 = used at hreq hs
  have hreq1 : req.seoj = used.seoj := UInt32.toNat.inj (congrArg Frame.seoj hreq)
  have hreq2 : req.esvByte = used.esvByte := congrArg Frame.esv hreq
  have hreq3 : req.properties = used.properties := by
    have hb := congrArg Frame.body hreq
    have h62 : used.esvByte = 0x62 := hs.2.2.1.trans hrd
    unfold frameOf at hb
    simp only [hreq2, h62] at hb
    simpa [isWriteReadByte] using hb
  have h62 : req.esvByte = 0x62 := hreq2.trans (hs.2.2.1.trans hrd)
  obtain ⟨_, _, _, _, svc, hhead, _, _⟩ := Node.reply_cases hk hobs hu
  obtain ⟨o', _, _, h29, _⟩ := C29_read_returns_data b ω ok n n' req outs hk hobs u hu (by rw [hesv]; rfl)
  have hup := h29 (Or.inl h62)
  have hudeoj : u.deoj = 0x0EF001 := by rw [hhead.deoj, hreq1, hs.1]
  have hres1 : res.deoj = 0x0EF001 := by
    rw [← hudeoj]; exact UInt32.toNat.inj (congrArg Frame.deoj hres)
  have hres2 : res.esvByte = 0x72 := (congrArg Frame.esv hres).trans hesv
  have hres3 : res.properties = u.properties := by
    have hb := congrArg Frame.body hres
    unfold frameOf at hb
    simp only [hres2, hesv] at hb
    simpa [isWriteReadByte] using hb
  refine invoke_no_list hdb ⟨Or.inl hres2, Or.inl hres1⟩ ?_ c e he huu
  intro p hp
  rw [hres3, hup, hreq3, hs.2.2.2.1] at hp
  unfold dataOf at hp
  obtain ⟨w, hw, rfl⟩ := List.mem_map.mp hp
  exact hno w hw

/-- Non-vacuity of C58: a controller reads property 0x80 of object 0x029001; the node answers 0x72. -/
example : ∃ n, exNode [acceptAll] = .ok n ∧
    let rd := (exRequest .ReadRequest 0).addProperty ⟨0x80, []⟩
    let req := (exController.sendMessage allOk true ⟨⟨.v4 1, 3610⟩, []⟩ rd).2.1
    rd.esvByte = 0x62 ∧ (∀ p ∈ rd.properties, p.code ≠ 0xD6) ∧
    ∃ n' outs, n.observe .dev .ascending allOk req = .ok (n', outs) ∧
      (replies outs).map (fun u => u.esvByte) = [0x72] := by
  refine ⟨_, rfl, by decide +kernel, by decide +kernel, _, _, rfl, ?_⟩ <;> decide +kernel

/-- What holds of C58: responses to writes, error responses and requests do not change what the controller
knows. -/
theorem C58_other_responses_partial (b : Build) (db : Database) (res : Message) (c : Host S) (e : CallEnv)
    (h : res.esvByte ≠ 0x72 ∧ res.esvByte ≠ 0x73) : c.invoke b db e res .controller = .ok (c, []) := by
  have hn : ¬ IsProfileMessage res := fun hm => by
    rcases hm.1 with h' | h'
    · exact h.1 h'
    · exact h.2 h'
  simp only [Host.invoke, observeController_other b db e.ω e.uuid e.ctrlFree c.remotes (Or.inr hn), Res.bind_ok, Res.pure_eq]

/-! ## C59 -/

/-- C59 is false: dropping (or stopping) one `Device` stops its whole node, whatever other devices live on
it: nothing is received or sent any more, and every object's operating status says off. -/
theorem C59_fails (d : Device) (n : Node S) (ht : ThreadsOk n.transport) :
    ∃ n', d.drop n = .ok n' ∧ n'.isRunning = false ∧ n'.transport.ucast = [] ∧ n'.transport.mcast = [] ∧
      ∀ o ∈ n'.objects, ∀ p, o.properties 0x80 = some p → p.data = [0x31] := by
  have hs := (C42_stop n).1 ht
  refine ⟨{ n with objects := (n.objects.map (mapProperties stoppedProperty)), transport := ⟨[], []⟩ }, ?_, ?_⟩
  · unfold Device.drop Device.stop
    simp only [hs, Res.bind_ok]
    rfl
  · refine ⟨rfl, rfl, rfl, ?_⟩
    intro o ho p hp
    obtain ⟨o', _, rfl⟩ := List.mem_map.mp ho
    obtain ⟨q, _, rfl⟩ := Option.map_eq_some_iff.mp hp
    rfl

theorem findObject_mapProperties (g : UInt8 → Property → Property) (os : List Object) (code : UInt32) :
    findObject (os.map (mapProperties g)) code = (findObject os code).map (mapProperties g) := by
  induction os with
  | nil => rfl
  | cons o os ih =>
    unfold findObject at ih ⊢
    simp only [List.map_cons, List.find?_cons]
    rw [show (mapProperties g o).code = o.code from rfl]
    cases o.code == code with
    | true => rfl
    | false => exact ih

/-- C59, the part that holds: stopping or dropping one of several devices of a node loses none of their objects,
handlers, observers or data other than the operating status, and a later start through any of them makes all of
them run again with operating status on and no fault. Missing: until then the others are stopped too (`C59_fails`). -/
theorem C59_stop_partial (d : Device) (n n' : Node S) (h : d.drop n = .ok n') (ht : ThreadsOk n.transport) :
    n'.handlers = n.handlers ∧ n'.observers = n.observers ∧ n'.app = n.app ∧
    (∀ code c, c ≠ 0x80 → n'.property code c = n.property code c) ∧
    (∀ (d₂ : Device) menv uenv ok n'' outs, d₂.start menv uenv ok n' = .ok (true, n'', outs) →
      n''.isRunning = true ∧ n''.handlers = n.handlers ∧
      ∀ code c, n''.property code c = if c = 0x80 then (n.property code c).map (fun _ => [0x30])
        else if c = 0x88 then (n.property code c).map (fun _ => [0x42]) else n.property code c) := by
  unfold Device.drop Device.stop at h
  simp only [(C42_stop n).1 ht, Res.bind_ok, Bool.not_true, Bool.false_eq_true, if_false, Res.pure_eq,
    Res.ok.injEq] at h
  subst h
  refine ⟨rfl, rfl, rfl, ?_, ?_⟩
  · intro code c hc
    unfold Node.property
    simp only [findObject_mapProperties]
    cases findObject n.objects code with
    | none => rfl
    | some o =>
      simp only [Option.map_some, Object.findProperty, mapProperties]
      cases o.properties c with
      | none => rfl
      | some p => simp only [Option.map_some, stoppedProperty, if_neg hc]
  · intro d₂ menv uenv ok n'' outs h
    unfold Device.start at h
    obtain ⟨⟨r, m, os⟩, hr, h⟩ := Res.bind_eq_ok.mp h
    cases r with
    | false => simp at h
    | true =>
      simp only [Bool.not_true, Bool.false_eq_true, if_false, Res.pure_eq, Res.ok.injEq, Prod.mk.injEq,
        true_and] at h
      obtain ⟨rfl, rfl⟩ := h
      obtain ⟨h1, h2, h3, _⟩ := C42_start menv uenv ok _ _ _ hr
      refine ⟨h1, h3, ?_⟩
      intro code c
      unfold Node.property
      rw [h2]
      simp only [findObject_mapProperties]
      cases findObject n.objects code with
      | none => simp
      | some o =>
        simp only [Option.map_some, Object.findProperty, mapProperties]
        cases o.properties c with
        | none => simp
        | some p =>
          by_cases hc : c = 0x80
          · simp [hc, startedProperty]
          · by_cases h8 : c = 0x88
            · simp [h8, startedProperty, stoppedProperty]
            · simp [hc, h8, startedProperty, stoppedProperty]

/-- Non-vacuity of C59: a running node. -/
example : ∃ n, exNode [] = .ok n ∧ ThreadsOk n.transport ∧ n.isRunning = true := by
  refine ⟨_, rfl, ?_, rfl⟩
  intro s hs
  simp only [exTransport, List.cons_append, List.nil_append, List.mem_cons, List.not_mem_nil, or_false] at hs
  rcases hs with rfl | rfl | rfl <;> decide

/-! ## C34 on a new node -/

/-- C34 is false of every new node: a single write-read request from anywhere stores any data in the node
profile's property 0x81. -/
theorem C34_fails_standard (b : Build) (ω₀ : HashOrder) (db : Database) (hdb : standardDb b ω₀ = .ok db)
    (uuid₁ uuid₂ : List UInt8) (hu₁ : uuid₁.length = 16) (hu₂ : uuid₂.length = 16) (ω ω' : HashOrder) (app : S)
    (n : Node S) (hnew : Node.new b db uuid₁ uuid₂ ω app = .ok n) (ok : Nat → Bool) (d : List UInt8)
    (msg : Message) (h6 : msg.esvByte = 0x6E) (hd : msg.deoj = profileCode) (hps : msg.properties = [])
    (hset : msg.setProperties = [⟨0x81, d⟩]) (hget : msg.getProperties = []) :
    ∃ n' outs, n.observe b ω' ok msg = .ok (n', outs) ∧ n'.property profileCode 0x81 = some d := by
  obtain ⟨n₁, h1, hinv, hcodes, _, hh, _, _, _, _, np, ho, hattr⟩ := newNode_inv hdb hu₁ hu₂ ω app
  rw [hnew] at h1
  simp only [Res.ok.injEq] at h1
  subst h1
  have hcode : np.code = profileCode := by rw [ho] at hcodes; simpa using hcodes
  obtain ⟨np', ds, ho', _, hself, _⟩ := hinv.shape
  rw [ho] at ho'
  simp only [List.cons.injEq] at ho'
  obtain ⟨rfl, rfl⟩ := ho'
  have hkeys : KeysOk np := hinv.keys np (by rw [ho]; simp)
  have ht : Targets n msg [] np [] := ⟨ho, by simp, by rw [hcode, hd]⟩
  obtain ⟨p, hp, hw, hcap⟩ : ∃ p, np.properties 0x81 = some p ∧ p.writeAttr ≠ .Prohibited ∧ p.capacity = 0 := by
    have hdef : (standardDef 0x0EF001 0x81).map (fun p => (p.writeAttr, p.capacity)) = some (.Required, 0) := by
      decide +kernel
    have := hattr 0x81
    have hst := standardTable_attrs uuid₁ uuid₂ 0x0EF001 0x81
    have h0 : (0x0EF001 : UInt32).toNat = 0x0EF001 := rfl
    rw [h0] at hst
    rw [hst] at this
    obtain ⟨q, hq, hqq⟩ := Option.map_eq_some_iff.mp hdef
    rw [hq] at this
    obtain ⟨p, hp, hpq⟩ := Option.map_eq_some_iff.mp this
    simp only [Prod.mk.injEq] at hqq
    refine ⟨p, hp, ?_, ?_⟩
    · have : p.writeAttr = q.writeAttr := by
        show (attrsOf p).writeAttr = (attrsOf q).writeAttr; rw [hpq]
      rw [this, hqq.1]; decide
    · have : p.capacity = q.capacity := by
        show (attrsOf p).capacity = (attrsOf q).capacity; rw [hpq]
      rw [this, hqq.2]
  obtain ⟨⟨n', outs⟩, hobs⟩ : ∃ r, n.observe b ω' ok msg = .ok r := by
    have hl : n.isLastMessageResponse msg = false := by
      have : msg.esv = .WriteReadRequest := by unfold Message.esv; rw [h6]; rfl
      unfold Node.isLastMessageResponse
      rw [this]; rfl
    have hpost : n.observePost msg = .ok (n, []) := by
      unfold Node.observePost; rw [hl]; rfl
    obtain ⟨r, hm⟩ := Node.messageReceived_no_panic (b := b) (ω := ω') (n := n) (req := msg) (by
      intro o hmem _
      rw [ho] at hmem
      rw [List.mem_singleton.mp hmem]
      exact Or.inr hself.1)
    unfold Node.observe
    simp only [hpost, Res.bind_ok, hm]
    cases r.1 with
    | none => exact ⟨_, rfl⟩
    | some res =>
      simp only []
      split
      · split <;> exact ⟨_, rfl⟩
      · exact ⟨_, rfl⟩
  obtain ⟨np', p', ho', hp', hd'⟩ := C34_write_read_fails b ω' ok n n' msg outs [] [] np ht hd hkeys hh 0x81 p hp hw d
    (Or.inl hcap) h6 hps hset hget hobs
  obtain ⟨_, hc'⟩ := step_inv (op := .receive msg true ω' ok) hinv trivial (n' := n') (outs := outs) hobs
  refine ⟨n', outs, hobs, ?_⟩
  have hcn : np'.code = profileCode := by
    rw [ho', ho] at hc'
    simpa [addedCodes, hcode] using hc'
  have hf : findObject n'.objects profileCode = some np' := by
    rw [ho']; exact findObject_append (pre := []) (by simp) hcn
  unfold Node.property
  have hp'' : np'.findProperty 0x81 = some p' := hp'
  simp only [hf, hp'', hd']

end Uecho
