import Verif.Spec.Crash
import Verif.Props.Observers
/-!
# Panics: C57
-/
namespace Uecho
open Spec
variable {S : Type}

theorem received_fields {m : Message} (h : Received m) : m.isFormat1 = true ∧ SizesOk m := by
  obtain ⟨bytes, src, h⟩ := h
  unfold recvLoop at h
  split at h
  · simp at h
  · simp [recvLoop] at h
  · rename_i m' hp
    simp only [recvLoop, Prod.mk.injEq, List.cons.injEq, and_true] at h
    obtain ⟨f, rest, hv, _, h1, _, _, _, _, _, hb⟩ := Message.parse_sound _ _ _ hp
    subst h
    refine ⟨h1, ?_⟩
    have hv' := hv.2.2.2
    unfold SizesOk
    cases hbody : f.body with
    | single ps =>
      rw [hbody] at hb hv'
      simp only [Message.setFrom, hb.1, hb.2.1, hb.2.2]
      refine ⟨?_, by decide, by decide⟩
      exact hv'.2
    | setGet s g =>
      rw [hbody] at hb hv'
      simp only [Message.setFrom, hb.1, hb.2.1, hb.2.2]
      exact ⟨by decide, hv'.2.1, hv'.2.2⟩

theorem setPropertyData_valid {b : Build} {o : Object} (h : ValidObject b o) (c : UInt8) (d : List UInt8) :
    ValidObject b (o.setPropertyData c d).2 := h.imp id (fun h => Object.setPropertyData_codesOk h c d)

theorem foldl_setPropertyData_valid {α : Type} {b : Build} (f : α → UInt8) (g : α → List UInt8) (l : List α) {o : Object}
    (h : ValidObject b o) : ValidObject b (l.foldl (fun d p => (d.setPropertyData (f p) (g p)).2) o) := by
  induction l generalizing o with
  | nil => exact h
  | cons p l ih => exact ih (setPropertyData_valid h _ _)

theorem updateObject_valid {b : Build} {f : Object → Object} (hf : ∀ o, ValidObject b o → ValidObject b (f o))
    (code : UInt32) {objs : List Object} (h : ∀ o ∈ objs, ValidObject b o) :
    ∀ o ∈ updateObject code f objs, ValidObject b o := by
  induction objs with
  | nil => simp [updateObject]
  | cons x objs ih =>
    unfold updateObject
    have hx := h x (by simp)
    have hxs := fun o ho => h o (List.mem_cons_of_mem x ho)
    split
    · intro o ho
      rcases List.mem_cons.mp ho with rfl | ho
      · exact hf x hx
      · exact hxs o ho
    · intro o ho
      rcases List.mem_cons.mp ho with rfl | ho
      · exact hx
      · exact ih hxs o ho

theorem mapProperties_valid {b : Build} {f : UInt8 → Property → Property} (hf : ∀ c p, (f c p).code = p.code) {o : Object}
    (h : ValidObject b o) : ValidObject b (mapProperties f o) := by
  refine h.imp id (fun h k p hp => ?_)
  obtain ⟨q, hq, rfl⟩ := Option.map_eq_some_iff.mp hp
  rw [hf]; exact h k q hq

theorem messageReceived_valid {b : Build} {ω : HashOrder} {n : Node S} {req : Message} {r : Option Message × Node S}
    (hn : ∀ o ∈ n.objects, ValidObject b o) (h : n.messageReceived b ω req = .ok r) :
    ∀ o ∈ r.2.objects, ValidObject b o := by
  unfold Node.messageReceived at h
  split at h
  · simp only [Res.ok.injEq] at h; rw [← h]; exact hn
  split at h
  · simp only [Res.ok.injEq] at h; rw [← h]; exact hn
  split at h
  · simp only [Res.ok.injEq] at h; rw [← h]; exact hn
  split at h
  · simp only [Res.ok.injEq] at h; rw [← h]; exact hn
  obtain ⟨copy, _, h⟩ := Res.bind_eq_ok.mp h
  simp only [] at h
  split at h
  · simp only [Res.pure_eq, Res.ok.injEq] at h; rw [← h]; exact hn
  · have key : ∀ (ps : List Property), ∀ o ∈ updateObject req.deoj (fun d => Node.writeRequestData d req)
        (updateObject req.deoj (fun d => Node.copyBack d ps) n.objects), ValidObject b o := by
      intro ps
      apply updateObject_valid
      · intro o ho
        unfold Node.writeRequestData
        split
        · exact foldl_setPropertyData_valid _ _ _ ho
        · exact foldl_setPropertyData_valid _ _ _ ho
        · exact foldl_setPropertyData_valid _ _ _ ho
        · exact ho
      · exact updateObject_valid (fun o ho => foldl_setPropertyData_valid _ _ _ ho) _ hn
    split at h
    · simp only [Res.pure_eq, Res.ok.injEq] at h; rw [← h]; exact key _
    · simp only [Res.pure_eq, Res.ok.injEq] at h; rw [← h]; exact key _

/-- C57, one message: for every message that can come in over the network, in every state of a node with
valid objects and whatever the handlers do, the node panics exactly if the message is an error response of
service 0x5E carrying the node's last TID. -/
theorem C57_receive_panics_iff (b : Build) (ω : HashOrder) (ok : Nat → Bool) (n : Node S)
    (hn : ∀ o ∈ n.objects, ValidObject b o) (msg : Message) (hm : Received msg) :
    n.observe b ω ok msg = .panic ↔ msg.esvByte = 0x5E ∧ msg.tid = n.lastTid := by
  obtain ⟨hf, hs⟩ := received_fields hm
  constructor
  · intro hp
    by_cases hc : msg.esvByte = 0x5E ∧ msg.tid = n.lastTid
    · exact hc
    · exfalso
      obtain ⟨q, hq, hqo⟩ : ∃ q : Node S × List Out, n.observePost msg = .ok q ∧ q.1.objects = n.objects := by
        unfold Node.observePost
        split
        · rename_i hl
          have ht : msg.tid = n.lastTid := by
            unfold Node.isLastMessageResponse at hl
            split at hl
            · simp at hl
            · split at hl
              · simp at hl
              · rename_i h; exact Classical.not_not.mp h
          obtain ⟨m', hcl, _⟩ := C07_clone_partial msg hf hs (fun h5 => hc ⟨h5, ht⟩)
          rw [hcl]
          exact ⟨_, rfl, rfl⟩
        · exact ⟨_, rfl, rfl⟩
      obtain ⟨r, hr⟩ := Node.messageReceived_no_panic (b := b) (ω := ω) (n := q.1) (req := msg)
        (fun o ho _ => hn o (by rw [← hqo]; exact ho))
      unfold Node.observe at hp
      simp only [hq, Res.bind_ok, hr] at hp
      cases h1 : r.1 with
      | none => rw [h1] at hp; simp at hp
      | some res =>
        rw [h1] at hp
        simp only [] at hp
        split at hp
        · split at hp <;> simp at hp
        · simp at hp
  · intro ⟨h5, ht⟩
    exact C40_write_read_error_panics b ω ok n msg h5 ht hf hs

theorem observe_valid {b : Build} {ω : HashOrder} {ok : Nat → Bool} {n n' : Node S} {msg : Message} {outs : List Out}
    (hn : ∀ o ∈ n.objects, ValidObject b o) (h : n.observe b ω ok msg = .ok (n', outs)) :
    ∀ o ∈ n'.objects, ValidObject b o := by
  obtain ⟨q, pouts, r, hq, hm, hres⟩ := Node.observe_first h
  have hqo : q.objects = n.objects := by
    rcases hq with ⟨rfl, _⟩ | ⟨_, rfl, _⟩ <;> rfl
  have hv := messageReceived_valid (r := r) (by rw [hqo]; exact hn) hm
  cases hr1 : r.1 with
  | none => rw [hr1] at hres; simp only [] at hres; rw [hres.1]; exact hv
  | some res =>
    rw [hr1] at hres
    simp only [] at hres
    split at hres
    · split at hres
      · rw [hres.1, Node.sendMessage]; simp only [Node.updateTid_objects]; exact hv
      · rw [hres.1, Node.notify]; simp only [Node.updateTid_objects]; exact hv
    · rw [hres.1]; exact hv

theorem updateNodeProfile_valid {b : Build} {n : Node S} (hne : n.objects ≠ []) (hn : ∀ o ∈ n.objects, ValidObject b o) :
    ∃ n', n.updateNodeProfile b = .ok n' ∧ (∀ o ∈ n'.objects, ValidObject b o) ∧ n'.transport = n.transport := by
  unfold Node.updateNodeProfile
  simp only []
  split
  · exact ⟨n, rfl, hn, rfl⟩
  · rename_i np hf
    rw [nodeProfileUpdate_eq b np _ (by simpa using hne)]
    refine ⟨_, rfl, ?_, rfl⟩
    have hnp : np ∈ n.objects := List.mem_of_find?_eq_some hf
    have : ValidObject b (mapProperties (profileProperty (n.objects.map Object.code)
        ((n.objects.map Object.code).length - 1)) np) :=
      mapProperties_valid (fun c p => (profileProperty_code _ _ c p).1) (hn np hnp)
    have key : ∀ l : List Object, (∀ o ∈ l, ValidObject b o) → ∀ x, ValidObject b x →
        ∀ o ∈ updateObject nodeProfileCode (fun _ => x) l, ValidObject b o := by
      intro l hl x hx
      exact updateObject_valid (fun _ _ => hx) _ hl
    exact key _ hn _ this

theorem startTransport_ok {menv uenv : List IfOutcome} (h4 : ∀ e ∈ menv, IsV4 e.addr) (m : Manager) (hm : ThreadsOk m) :
    ∃ r m', Node.startTransport menv uenv m = .ok (r, m') ∧ ThreadsOk m' := by
  unfold Node.startTransport
  cases hr : m.isRunning with
  | true => exact ⟨true, m, by simp, hm⟩
  | false =>
    simp only [Bool.not_false, if_true]
    unfold Manager.start
    rw [hr]
    simp only [Bool.false_eq_true, if_false]
    have hmc : ∃ r, startMulticast menv m.mcast = .ok r ∧ ∀ s ∈ r.2, s.thread ≠ .panicked := by
      by_cases he : m.mcast = []
      · rw [he, startMulticast_eq h4]
        refine ⟨_, rfl, ?_⟩
        intro s hs
        simp only [serversFor, List.mem_map] at hs
        obtain ⟨e, _, rfl⟩ := hs
        simp [Server.started]
      · refine ⟨(true, m.mcast), ?_, fun s hs => hm s (List.mem_append_right _ hs)⟩
        unfold startMulticast
        rw [if_pos (by simpa using he)]
    have huc : ∀ s ∈ (startUnicast uenv m.ucast).2, s.thread ≠ .panicked := by
      by_cases he : m.ucast = []
      · rw [he, startUnicast_eq]
        intro s hs
        simp only [serversFor, List.mem_map] at hs
        obtain ⟨e, _, rfl⟩ := hs
        simp [Server.started]
      · unfold startUnicast
        rw [if_pos (by simpa using he)]
        exact fun s hs => hm s (List.mem_append_left _ hs)
    obtain ⟨r, hr1, hr2⟩ := hmc
    rw [hr1]
    simp only [Res.bind_ok]
    have hstop : ∀ m : Manager, ThreadsOk m → ∃ x m', (do
        let s ← m.stop
        pure (false, s.2)) = Res.ok (x, m') ∧ ThreadsOk m' := by
      intro m hm
      refine ⟨false, ⟨[], []⟩, ?_, fun s hs => by simp at hs⟩
      rw [(C43_stop m).1 hm]; rfl
    split
    · apply hstop
      intro s hs
      rcases List.mem_append.mp hs with hs | hs
      · exact hm s (List.mem_append_left _ hs)
      · exact hr2 s hs
    · have hall : ThreadsOk ⟨(startUnicast uenv m.ucast).2, r.2⟩ := by
        intro s hs
        rcases List.mem_append.mp hs with hs | hs
        · exact huc s hs
        · exact hr2 s hs
      split
      · exact hstop _ hall
      · exact ⟨_, _, rfl, hall⟩

theorem start_ok {b : Build} {menv uenv : List IfOutcome} {ok : Nat → Bool} (h4 : ∀ e ∈ menv, IsV4 e.addr) {n : Node S}
    (hn : Sound b n) : ∃ r n' outs, n.start menv uenv ok = .ok (r, n', outs) ∧ Sound b n' := by
  obtain ⟨up, m, ht, hth⟩ := startTransport_ok (uenv := uenv) h4 n.transport hn.threads
  obtain ⟨⟨r, n', outs⟩, hst⟩ : ∃ x, n.start menv uenv ok = .ok x := by
    unfold Node.start
    rw [ht]
    simp only [Res.bind_ok]
    split
    · exact ⟨_, rfl⟩
    · split <;> exact ⟨_, rfl⟩
  refine ⟨r, n', outs, hst, ?_⟩
  obtain ⟨up', m', ht', hcase⟩ := start_result hst
  rw [ht] at ht'
  simp only [Res.ok.injEq, Prod.mk.injEq] at ht'
  obtain ⟨rfl, rfl⟩ := ht'
  rcases hcase with ⟨_, _, hn', _⟩ | ⟨_, n₀, hn₀, _, hn', _⟩
  · rw [hn']; exact ⟨hn.objects, hth⟩
  · rw [hn', (announce_frame ok n₀).1, hn₀]
    refine ⟨?_, ?_⟩
    · intro o ho
      obtain ⟨o', ho', rfl⟩ := List.mem_map.mp ho
      refine mapProperties_valid (fun c p => ?_) (hn.objects o' ho')
      show (attrsOf (startedProperty c p)).code = (attrsOf p).code
      rw [startedProperty_attrs]
    · show ThreadsOk (n.observers.foldl Manager.addObserver m)
      rw [addObservers_eq]
      intro s hs
      simp only [] at hs
      rw [← List.map_append] at hs
      obtain ⟨s', hs', rfl⟩ := List.mem_map.mp hs
      exact hth s' hs'

theorem stop_ok {b : Build} {n : Node S} (hn : Sound b n) : ∃ n', n.stop = .ok (true, n') ∧ Sound b n' := by
  refine ⟨_, (C42_stop n).1 hn.threads, ?_, fun s hs => by simp at hs⟩
  intro o ho
  obtain ⟨o', ho', rfl⟩ := List.mem_map.mp ho
  refine mapProperties_valid (fun c p => ?_) (hn.objects o' ho')
  show (attrsOf (stoppedProperty c p)).code = (attrsOf p).code
  rw [stoppedProperty_attrs]

theorem observeTry_ok {b : Build} {ω : HashOrder} {ok : Nat → Bool} {free : Bool} {n : Node S} {msg : Message}
    (hn : Sound b n) (hm : SafeMessage msg) : ∃ n' outs, n.observeTry b ω ok free msg = .ok (n', outs) ∧ Sound b n' := by
  unfold Node.observeTry
  cases free with
  | false => exact ⟨n, [], rfl, hn⟩
  | true =>
    simp only [Bool.not_true, Bool.false_eq_true, if_false]
    cases h : n.observe b ω ok msg with
    | panic => exact absurd ((C57_receive_panics_iff b ω ok n hn.objects msg hm.1).mp h).1 hm.2
    | ok r => exact ⟨r.1, r.2, rfl, observe_valid hn.objects h, by rw [(observe_frame h).2.1]; exact hn.threads⟩

theorem step_ok {b : Build} {n : Node S} {op : Op S} (hn : Sound b n) (hop : SafeOp b op) :
    ∃ n' outs, n.step b op = .ok (n', outs) ∧ Sound b n' := by
  have same : ∀ m : Node S, m.objects = n.objects → m.transport = n.transport → Sound b m := by
    intro m h1 h2
    exact ⟨by rw [h1]; exact hn.objects, by rw [h2]; exact hn.threads⟩
  cases op with
  | addObject o =>
    obtain ⟨n', h1, h2, h3⟩ := updateNodeProfile_valid (b := b) (n := { n with objects := (n.objects ++ [o]) }) (by simp)
      (by
        intro o' ho'
        rcases List.mem_append.mp ho' with h | h
        · exact hn.objects o' h
        · rw [List.mem_singleton.mp h]; exact hop)
    refine ⟨n', [], ?_, h2, by rw [h3]; exact hn.threads⟩
    simp only [Node.step, Node.addObject, h1, Res.bind_ok, Res.pure_eq]
  | addHandler h => exact ⟨_, _, rfl, same _ rfl rfl⟩
  | addObserver o => exact ⟨_, _, rfl, same _ rfl rfl⟩
  | send to msg ok => exact ⟨_, _, rfl, same _ (Node.updateTid_objects _ _) (Node.updateTid_transport _ _)⟩
  | post to msg ok => exact ⟨_, _, rfl, same _ (Node.updateTid_objects n msg) (Node.updateTid_transport n msg)⟩
  | notify msg ok => exact ⟨_, _, rfl, same _ (Node.updateTid_objects _ _) (Node.updateTid_transport _ _)⟩
  | announceProperty obj prop ok => exact ⟨_, _, rfl, same _ (Node.updateTid_objects _ _) (Node.updateTid_transport _ _)⟩
  | announce ok =>
    have := (announce_frame ok n).1
    exact ⟨_, _, rfl, same _ (by rw [this]) (by rw [this])⟩
  | setProperty oc c d =>
    refine ⟨_, _, rfl, ?_, by rw [setProperty_frame n oc c d]; exact hn.threads⟩
    unfold Node.setProperty
    split
    · exact hn.objects
    · split
      · exact hn.objects
      · exact updateObject_valid (fun o ho => setPropertyData_valid ho _ _) _ hn.objects
  | edit oc f => exact ⟨_, _, rfl, updateObject_valid (fun o ho => hop o ho) _ hn.objects, hn.threads⟩
  | receive msg free ω ok => exact observeTry_ok hn hop
  | start menv uenv ok =>
    obtain ⟨r, n', outs, h, hs⟩ := start_ok (uenv := uenv) (ok := ok) hop hn
    exact ⟨n', outs, by simp only [Node.step, h, Res.bind_ok, Res.pure_eq], hs⟩
  | stop =>
    obtain ⟨n', h, hs⟩ := stop_ok hn
    exact ⟨n', [], by simp only [Node.step, h, Res.bind_ok, Res.pure_eq], hs⟩

theorem observeController_ok {b : Build} {ω₀ : HashOrder} {db : Database} (hdb : standardDb b ω₀ = .ok db) (e : CallEnv)
    (hu : ∀ i, (e.uuid i).length = 16) (remotes : List RemoteNode) (msg : Message) :
    ∃ r, observeController b db e.ω e.uuid e.ctrlFree remotes msg = .ok r := by
  by_cases h : e.ctrlFree = true ∧ IsProfileMessage msg
  · obtain ⟨r, h1, _⟩ := observeController_profile hdb e.ω e.uuid hu remotes h.2
    rw [h.1]; exact ⟨_, h1⟩
  · refine ⟨_, observeController_other b db e.ω e.uuid e.ctrlFree remotes ?_⟩
    by_cases hf : e.ctrlFree = true
    · exact Or.inr (fun hm => h ⟨hf, hm⟩)
    · exact Or.inl (by simpa using hf)

theorem invoke_ok {b : Build} {ω₀ : HashOrder} {db : Database} (hdb : standardDb b ω₀ = .ok db) {e : CallEnv}
    (hu : ∀ i, (e.uuid i).length = 16) {h : Host S} {msg : Message} (hh : Sound b h.node) (hm : SafeMessage msg)
    (o : ObserverRef) : ∃ h' outs, h.invoke b db e msg o = .ok (h', outs) ∧ Sound b h'.node := by
  cases o with
  | node =>
    obtain ⟨n', outs, h1, h2⟩ := observeTry_ok (ω := e.ω) (ok := e.ok) (free := e.nodeFree) hh hm
    exact ⟨{ h with node := n' }, outs, by simp only [Host.invoke, h1, Res.bind_ok, Res.pure_eq], h2⟩
  | controller =>
    obtain ⟨r, h1⟩ := observeController_ok hdb e hu h.remotes msg
    exact ⟨{ h with remotes := r }, [], by simp only [Host.invoke, h1, Res.bind_ok, Res.pure_eq], hh⟩
  | device => exact ⟨h, [], rfl, hh⟩
  | user k => exact ⟨_, _, rfl, hh⟩

/-- C57 (partial): no history of calls of the public API and of received messages, handed to any observers
in any interleaving, panics, whatever the request handlers do, as long as the objects' property codes are
valid (or the build has no overflow checks), the interfaces are IPv4 and no received message has service
0x5E. Missing: 0x5E, see `C57_fails_response`, and undecodable datagrams, see `C57_fails_datagram`. -/
theorem C57_no_panic_partial (b : Build) (ω₀ : HashOrder) (db : Database) (hdb : standardDb b ω₀ = .ok db)
    (h : Host S) (hh : Sound b h.node) (ops : List (HostOp S)) (hops : ∀ op ∈ ops, SafeHostOp b op) :
    ∃ h' outs, h.run b db ops = .ok (h', outs) ∧ Sound b h'.node := by
  induction ops generalizing h with
  | nil => exact ⟨h, [], rfl, hh⟩
  | cons op ops ih =>
    have hop := hops op (by simp)
    have same : ∀ m : Node S, m.objects = h.node.objects → m.transport = h.node.transport → Sound b m := by
      intro m h1 h2
      exact ⟨by rw [h1]; exact hh.objects, by rw [h2]; exact hh.threads⟩
    obtain ⟨h₁, o₁, hstep, hs⟩ : ∃ h₁ o₁, h.step b db op = .ok (h₁, o₁) ∧ Sound b h₁.node := by
      cases op with
      | call o e msg => exact invoke_ok hdb hop.2 hh hop.1 o
      | node op =>
        obtain ⟨n', outs, h1, h2⟩ := step_ok hh hop
        exact ⟨{ h with node := n' }, outs, by simp only [Host.step, h1, Res.bind_ok, Res.pure_eq], h2⟩
      | search code ok => exact ⟨_, _, rfl, same _ (Node.updateTid_objects _ _) (Node.updateTid_transport _ _)⟩
      | send r msg free ok =>
        refine ⟨_, _, rfl, ?_⟩
        unfold Host.sendMessage
        split
        · exact hh
        · exact same _ (Node.updateTid_objects _ _) (Node.updateTid_transport _ _)
      | post r msg ok =>
        exact ⟨_, _, rfl, same _ (Node.updateTid_objects h.node (msg.setSeoj nodeProfileCode))
          (Node.updateTid_transport h.node (msg.setSeoj nodeProfileCode))⟩
      | start menv uenv ok =>
        obtain ⟨r, n', outs, h1, h2⟩ := start_ok (uenv := uenv) (ok := ok) hop hh
        refine ⟨{ h with node := n' }, outs, ?_, h2⟩
        simp only [Host.step, Host.start, h1, Res.bind_ok]
        cases r <;> rfl
      | stop =>
        obtain ⟨n', h1, h2⟩ := stop_ok hh
        refine ⟨{ h with node := n' }, [], ?_, h2⟩
        simp only [Host.step, Host.stop, h1, Res.bind_ok]
        rfl
    obtain ⟨h', outs, hrun, hs'⟩ := ih h₁ hs (fun op hm => hops op (by simp [hm]))
    exact ⟨h', o₁ ++ outs, by simp only [Host.run, hstep, hrun, Res.bind_ok, Res.pure_eq], hs'⟩

theorem notifyObservers_ok {b : Build} {ω₀ : HashOrder} {db : Database} (hdb : standardDb b ω₀ = .ok db) {msg : Message}
    (hm : SafeMessage msg) (obs : List ObserverRef) (env : Nat → CallEnv) (hu : ∀ i j, ((env i).uuid j).length = 16)
    {h : Host S} (hh : Sound b h.node) :
    ∃ h' outs, h.notifyObservers b db env msg obs = .ok (h', outs) ∧ Sound b h'.node := by
  induction obs generalizing h env with
  | nil => exact ⟨h, [], rfl, hh⟩
  | cons o obs ih =>
    obtain ⟨h₁, o₁, h1, hs⟩ := invoke_ok hdb (hu 0) hh hm o
    obtain ⟨h₂, o₂, h2, hs'⟩ := ih (fun i => env (i + 1)) (fun i => hu (i + 1)) hs
    exact ⟨h₂, o₁ ++ o₂, by simp only [Host.notifyObservers, h1, h2, Res.bind_ok, Res.pure_eq], hs'⟩

/-- The messages of the receive loop come in over the network. -/
theorem recvLoop_received (evs : List SocketEvent) : ∀ m ∈ (recvLoop evs).1, Received m ∧
    ∃ bytes src, SocketEvent.datagram bytes src ∈ evs ∧ recvLoop [.datagram bytes src] = ([m], .running) := by
  induction evs with
  | nil => intro m hm; simp [recvLoop] at hm
  | cons e evs ih =>
    intro m hm
    have tail : m ∈ (recvLoop evs).1 → Received m ∧ ∃ bytes src, SocketEvent.datagram bytes src ∈ e :: evs ∧
        recvLoop [.datagram bytes src] = ([m], .running) := by
      intro h
      obtain ⟨h1, bytes, src, h2, h3⟩ := ih m h
      exact ⟨h1, bytes, src, by simp [h2], h3⟩
    cases e with
    | timeout => exact tail hm
    | error => simp [recvLoop] at hm
    | datagram bytes src =>
      unfold recvLoop at hm
      split at hm
      · simp at hm
      · exact tail hm
      · rename_i msg hp
        rcases List.mem_cons.mp hm with rfl | hm
        · have : recvLoop [.datagram bytes src] = ([msg.setFrom src], .running) := by
            simp [recvLoop, hp]
          exact ⟨⟨bytes, src, this⟩, bytes, src, by simp, this⟩
        · exact tail hm

/-- C57 (partial), one receiver thread: whatever the socket delivers, as long as no datagram is poisonous
(`Harmless`), there is no fatal socket error and no frame has service 0x5E, the thread keeps running through
decoding and all its observers. -/
theorem C57_receiver_partial (b : Build) (ω₀ : HashOrder) (db : Database) (hdb : standardDb b ω₀ = .ok db)
    (h : Host S) (hh : Sound b h.node) (obs : List ObserverRef) (env : Nat → Nat → CallEnv)
    (hu : ∀ i j k, ((env i j).uuid k).length = 16) (evs : List SocketEvent) (hev : ∀ e ∈ evs, Harmless e)
    (h5 : ∀ m ∈ (recvLoop evs).1, m.esvByte ≠ 0x5E) :
    (recvLoop evs).2 = .running ∧ ∃ h' outs, h.serve b db obs env (recvLoop evs).1 = .ok (h', outs) := by
  refine ⟨(C46_handed_partial evs hev).2, ?_⟩
  have key : ∀ ms : List Message, (∀ m ∈ ms, SafeMessage m) → ∀ (h : Host S) (env : Nat → Nat → CallEnv),
      (∀ i j k, ((env i j).uuid k).length = 16) → Sound b h.node → ∃ h' outs, h.serve b db obs env ms = .ok (h', outs) := by
    intro ms
    induction ms with
    | nil => intro _ h _ _ _; exact ⟨h, [], rfl⟩
    | cons m ms ih =>
      intro hms h env hu hh
      obtain ⟨h₁, o₁, h1, hs⟩ := notifyObservers_ok hdb (hms m (by simp)) obs (env 0) (hu 0) hh
      obtain ⟨h₂, o₂, h2⟩ := ih (fun m hm => hms m (by simp [hm])) h₁ (fun i => env (i + 1)) (fun i => hu (i + 1)) hs
      exact ⟨h₂, o₁ ++ o₂, by simp only [Host.serve, h1, h2, Res.bind_ok, Res.pure_eq]⟩
  exact key _ (fun m hm => ⟨(recvLoop_received evs m hm).1, h5 m hm⟩) h env hu hh

/-- C57 is false: a 12-byte datagram that is no frame panics the decoder of every receiver thread. -/
theorem C57_fails_datagram (src : SocketAddr) :
    recvLoop [.datagram [0x10, 0x81, 0, 1, 5, 0xFF, 1, 0x0E, 0xF0, 1, 0x6E, 0] src] = ([], .panicked) := rfl

/-- C57 is false: for every node, whatever its state, there is a well-formed frame of 13 bytes that panics
the node's observer while it holds the node's mutex: service 0x5E with the last TID. -/
theorem C57_fails_response (b : Build) (ω : HashOrder) (ok : Nat → Bool) (n : Node S) (src : SocketAddr) :
    let d := [0x10, 0x81] ++ be 2 n.lastTid.toNat ++ [0x05, 0xFF, 0x01, 0x0E, 0xF0, 0x01, 0x5E, 0, 0]
    d.length = 13 ∧ ∃ m, recvLoop [.datagram d src] = ([m], .running) ∧ n.observe b ω ok m = .panic := by
  intro d
  have hd : d = (⟨n.lastTid.toNat, 0x05FF01, 0x0EF001, 0x5E, .setGet [] []⟩ : Frame).encode := by
    simp [d, Frame.encode, Body.encode, encList, be]
  have hl : d.length = 13 := by simp [d, be_length]
  refine ⟨hl, ?_⟩
  obtain ⟨m, h1, _, h2, h3, _, _, h4, h5⟩ := recv_frame
    ⟨n.lastTid.toNat, 0x05FF01, 0x0EF001, 0x5E, .setGet [] []⟩
    ⟨UInt16.toNat_lt _, show (0x05FF01 : Nat) < 2 ^ 24 by decide, show (0x0EF001 : Nat) < 2 ^ 24 by decide,
      show isWriteReadByte 0x5E = true by decide, by decide, by decide⟩
    (by rw [← hd, hl]; decide) src
  rw [← hd] at h1
  obtain ⟨hf, hs⟩ := received_fields ⟨d, src, h1⟩
  exact ⟨m, h1, C40_write_read_error_panics b ω ok n m h4 (UInt16.toNat.inj h3) hf hs⟩

/-- Non-vacuity: every new node is sound, and so is a node with any devices added; a read request that comes
in over the network is a safe message. -/
example (b : Build) (ω₀ : HashOrder) (db : Database) (hdb : standardDb b ω₀ = .ok db)
    (uuid₁ uuid₂ : List UInt8) (hu₁ : uuid₁.length = 16) (hu₂ : uuid₂.length = 16) (ω : HashOrder) (app : S) :
    ∃ n, Node.new b db uuid₁ uuid₂ ω app = .ok n ∧ Sound b n ∧
      ∃ m, SafeMessage m ∧ m.esvByte = 0x62 ∧ m.deoj = 0x0EF001 := by
  obtain ⟨n₀, h1, hi, _, _, _, htr, _, _, _, np, ho, _⟩ := newNode_inv hdb hu₁ hu₂ ω app
  obtain ⟨np', ds, ho', _, hself, _⟩ := hi.shape
  rw [ho] at ho'
  simp only [List.cons.injEq] at ho'
  obtain ⟨rfl, rfl⟩ := ho'
  refine ⟨n₀, h1, ⟨?_, ?_⟩, ?_⟩
  · intro o hmem
    rw [ho] at hmem
    rw [List.mem_singleton.mp hmem]
    exact Or.inr hself.1
  · rw [htr]; intro s hs; simp [Manager.new] at hs
  · refine ⟨_, ⟨⟨[0x10, 0x81, 0, 1, 5, 0xFF, 1, 0x0E, 0xF0, 1, 0x62, 1, 0xD6, 0], ⟨.v4 1, 3610⟩, rfl⟩, ?_⟩, ?_, ?_⟩ <;>
      decide +kernel

end Uecho
