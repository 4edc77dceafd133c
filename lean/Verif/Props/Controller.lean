import Verif.Props.Device
import Verif.Lemmas.Controller
/-!
# The controller: C23, C24, C47, C48, C49, C51 (controller), C58
-/
namespace Uecho
open Spec
variable {S : Type}

/-! ## C47 -/

theorem step_known {b : Build} {ω₀ : HashOrder} {db : Database} (hdb : standardDb b ω₀ = .ok db)
    {h h' : Host S} {op : HostOp S} {outs : List Out} (hu : UuidsOk [op]) {ms : List Message}
    (hi : KnownInv h.remotes ms) (hs : h.step b db op = .ok (h', outs)) :
    KnownInv h'.remotes (ms ++ profileMessages [op]) := by
  have same : h'.remotes = h.remotes → profileMessages [op] = [] →
      KnownInv h'.remotes (ms ++ profileMessages [op]) := by
    intro h1 h2; rw [h1, h2, List.append_nil]; exact hi
  cases op with
  | call o e m =>
    cases o with
    | controller =>
      obtain ⟨r, h1, h2⟩ := hi.call hdb (hu .controller e m (by simp)) (ω := e.ω) (free := e.ctrlFree) m
      have hs' : h.invoke b db e m .controller = .ok (h', outs) := hs
      simp only [Host.invoke, h1, Res.bind_ok, Res.pure_eq, Res.ok.injEq, Prod.mk.injEq] at hs'
      rw [← hs'.1]
      have : profileMessages [HostOp.call (S := S) .controller e m] =
          if e.ctrlFree = true ∧ IsProfileMessage m then [m] else [] := by
        unfold profileMessages
        by_cases hc : e.ctrlFree = true ∧ IsProfileMessage m
        · rw [if_pos hc]; simp [hc]
        · rw [if_neg hc]; simp only [List.filterMap_cons, if_neg hc, List.filterMap_nil]
      rw [this]; exact h2
    | node =>
      obtain ⟨r, hr, hs⟩ := Res.bind_eq_ok.mp hs
      simp only [Res.pure_eq, Res.ok.injEq, Prod.mk.injEq] at hs
      exact same (by rw [← hs.1]) rfl
    | device =>
      simp only [Host.step, Host.invoke, Res.ok.injEq, Prod.mk.injEq] at hs
      exact same (by rw [← hs.1]) rfl
    | user k =>
      simp only [Host.step, Host.invoke, Res.ok.injEq, Prod.mk.injEq] at hs
      exact same (by rw [← hs.1]) rfl
  | node op =>
    obtain ⟨r, hr, hs⟩ := Res.bind_eq_ok.mp hs
    simp only [Res.pure_eq, Res.ok.injEq, Prod.mk.injEq] at hs
    exact same (by rw [← hs.1]) rfl
  | search code ok =>
    simp only [Host.step, Host.searchObject, Res.ok.injEq, Prod.mk.injEq] at hs
    exact same (by rw [← hs.1]) rfl
  | send r msg free ok =>
    simp only [Host.step, Res.ok.injEq] at hs
    refine same ?_ rfl
    have := congrArg (fun x => x.1.remotes) hs
    simp only [] at this
    rw [← this]
    unfold Host.sendMessage
    split <;> rfl
  | post r msg ok =>
    simp only [Host.step, Host.postMessage, Res.ok.injEq, Prod.mk.injEq] at hs
    exact same (by rw [← hs.1]) rfl
  | start menv uenv ok =>
    obtain ⟨r, hr, hs⟩ := Res.bind_eq_ok.mp hs
    obtain ⟨r', hr', hr⟩ := Res.bind_eq_ok.mp hr
    simp only [Res.pure_eq, Res.ok.injEq] at hs
    refine same ?_ rfl
    have h1 := congrArg (fun x => x.1.remotes) hs
    simp only [] at h1
    rw [← h1]
    split at hr <;> (simp only [Res.pure_eq, Res.ok.injEq] at hr; rw [← hr])
  | stop =>
    obtain ⟨r, hr, hs⟩ := Res.bind_eq_ok.mp hs
    obtain ⟨r', hr', hr⟩ := Res.bind_eq_ok.mp hr
    simp only [Res.pure_eq, Res.ok.injEq, Prod.mk.injEq] at hs
    refine same ?_ rfl
    rw [← hs.1]
    split at hr <;> (simp only [Res.pure_eq, Res.ok.injEq] at hr; rw [← hr])

theorem profileMessages_cons (op : HostOp S) (ops : List (HostOp S)) :
    profileMessages (op :: ops) = profileMessages [op] ++ profileMessages ops := by
  unfold profileMessages
  rw [← List.filterMap_append]; rfl

theorem run_known {b : Build} {ω₀ : HashOrder} {db : Database} (hdb : standardDb b ω₀ = .ok db)
    {h h' : Host S} {ops : List (HostOp S)} {outs : List Out} (hu : UuidsOk ops) {ms : List Message}
    (hi : KnownInv h.remotes ms) (hs : h.run b db ops = .ok (h', outs)) :
    KnownInv h'.remotes (ms ++ profileMessages ops) := by
  induction ops generalizing h ms outs with
  | nil =>
    simp only [Host.run, Res.ok.injEq, Prod.mk.injEq] at hs
    rw [← hs.1]
    simpa [profileMessages] using hi
  | cons op ops ih =>
    obtain ⟨r, hr, hs⟩ := Res.bind_eq_ok.mp hs
    obtain ⟨r', hr', hs⟩ := Res.bind_eq_ok.mp hs
    simp only [Res.pure_eq, Res.ok.injEq, Prod.mk.injEq] at hs
    have h1 := step_known hdb (fun o e m hm => hu o e m (by simp at hm; simp [hm])) hi (h' := r.1) (outs := r.2) hr
    have h2 := ih (fun o e m hm => hu o e m (by simp [hm])) h1 (outs := r'.2) (by rw [← hs.1]; exact hr')
    rw [profileMessages_cons, ← List.append_assoc]
    exact h2

theorem knownInv_nil : KnownInv [] [] := ⟨rfl, by simp⟩

/-- The list returned by `nodes()`, from the invariant. -/
theorem known_list (b : Build) (ω : HashOrder) {h : Host S} {ms : List Message} (hi : KnownInv h.remotes ms) :
    ∃ l, h.nodes b ω = .ok l ∧
      (l.map RemoteNode.addr).Nodup ∧
      (∀ a, a ∈ l.map RemoteNode.addr ↔ ∃ m ∈ ms, m.sender = a) ∧
      l.map RemoteNode.addr = lastOccurrences (ms.map (fun m => m.sender)) ∧
      (∀ r ∈ l, ∃ m, (ms.filter (fun m => m.sender = r.addr)).getLast? = some m ∧
        r.objects.map (fun o => o.code.toNat) = announcedCodes m ++ [0x0EF001]) := by
  obtain ⟨l, h1, h2⟩ := nodes_eq b ω hi.std
  have haddr : l.map RemoteNode.addr = lastOccurrences (ms.map (fun m => m.sender)) := by
    rw [← hi.addrs]
    have := congrArg (List.map Prod.fst) h2
    rw [List.map_map, List.map_map] at this
    exact this
  refine ⟨l, h1, by rw [haddr]; exact lastOccurrences_nodup _, ?_, haddr, ?_⟩
  · intro a
    rw [haddr, lastOccurrences_mem]
    simp
  · intro r hr
    have : entry r ∈ knownNodes ms := by
      rw [← hi.entries, ← h2]; exact List.mem_map_of_mem hr
    unfold knownNodes at this
    obtain ⟨a, _, ha⟩ := List.mem_filterMap.mp this
    obtain ⟨m, hm, he⟩ := Option.map_eq_some_iff.mp ha
    simp only [entry, Prod.mk.injEq] at he
    obtain ⟨rfl, he⟩ := he
    exact ⟨m, hm, he.symm⟩

/-- C47: over every history of a controller (any interleaving of received messages, calls of its API and of
its node's API), `nodes()` lists exactly the senders of the profile messages the controller got, each
once, ordered by their last message, each with the object codes of its last message (and the node
profile). -/
theorem C47_node_list (b : Build) (ω₀ : HashOrder) (db : Database) (hdb : standardDb b ω₀ = .ok db)
    (n : Node S) (ops : List (HostOp S)) (hu : UuidsOk ops) (h : Host S) (outs : List Out)
    (hrun : (Host.newController n).run b db ops = .ok (h, outs)) (ω : HashOrder) :
    ∃ l, h.nodes b ω = .ok l ∧
      (l.map RemoteNode.addr).Nodup ∧
      (∀ a, a ∈ l.map RemoteNode.addr ↔ ∃ m ∈ profileMessages ops, m.sender = a) ∧
      l.map RemoteNode.addr = lastOccurrences ((profileMessages ops).map (fun m => m.sender)) ∧
      (∀ r ∈ l, ∃ m, ((profileMessages ops).filter (fun m => m.sender = r.addr)).getLast? = some m ∧
        r.objects.map (fun o => o.code.toNat) = announcedCodes m ++ [0x0EF001]) := by
  have hi := run_known hdb hu (ms := []) (h := Host.newController n) knownInv_nil hrun
  rw [List.nil_append] at hi
  exact known_list b ω hi

/-- C47: what the controller lists for a remote object also has the properties of the standard object of
that code. -/
theorem C47_standard_properties (b : Build) (ω₀ : HashOrder) (db : Database) (hdb : standardDb b ω₀ = .ok db)
    (n : Node S) (ops : List (HostOp S)) (hu : UuidsOk ops) (h : Host S) (outs : List Out)
    (hrun : (Host.newController n).run b db ops = .ok (h, outs)) :
    ∀ r ∈ h.remotes, ∀ o ∈ r.objects, ∀ c,
      (o.findProperty c).map attrsOf = (standardDef o.code c).map attrsOf := by
  have hi := run_known hdb hu (ms := []) (h := Host.newController n) knownInv_nil hrun
  intro r hr o ho c
  obtain ⟨u₁, u₂, _, _, h⟩ := hi.std r hr o ho
  rw [← standardTable_attrs u₁ u₂]
  exact (h c).2

/-- No sequence of messages makes the controller panic. -/
theorem C47_never_panics (b : Build) (ω₀ : HashOrder) (db : Database) (hdb : standardDb b ω₀ = .ok db)
    (n : Node S) (l : List (CallEnv × Message)) (hu : ∀ x ∈ l, ∀ i, (x.1.uuid i).length = 16) :
    ∃ h, (Host.newController n).run b db (l.map (fun x => .call .controller x.1 x.2)) = .ok (h, []) := by
  have key : ∀ (l : List (CallEnv × Message)), (∀ x ∈ l, ∀ i, (x.1.uuid i).length = 16) → ∀ (h : Host S) ms,
      KnownInv h.remotes ms → ∃ h', h.run b db (l.map (fun x => .call .controller x.1 x.2)) = .ok (h', []) := by
    intro l
    induction l with
    | nil => intro _ h _ _; exact ⟨h, rfl⟩
    | cons x l ih =>
      intro hu h ms hi
      obtain ⟨r, h1, h2⟩ := hi.call hdb (hu x (by simp)) (ω := x.1.ω) (free := x.1.ctrlFree) x.2
      have hstep : h.step b db (.call .controller x.1 x.2) = .ok ({ h with remotes := r }, []) := by
        show h.invoke b db x.1 x.2 .controller = _
        simp only [Host.invoke, h1, Res.bind_ok, Res.pure_eq]
      obtain ⟨h', hh'⟩ := ih (fun y hy => hu y (by simp [hy])) { h with remotes := r } _ h2
      refine ⟨h', ?_⟩
      show Res.bind (h.step b db (.call .controller x.1 x.2)) _ = _
      rw [hstep]
      show Res.bind (Host.run b db _ _) _ = _
      rw [hh']
      rfl
  exact key l hu _ [] knownInv_nil

/-- An answer to a search from a given address listing the given object codes (three bytes each). -/
def exAnswer (a : SocketAddr) (data : List UInt8) : Message :=
  ((((Message.new.setTid 7).setSeoj 0x0EF001).setDeoj 0x0EF001).setEsv .ReadResponse
    |>.addProperty ⟨0xD6, data⟩).setFrom a

def exCall (free : Bool) : CallEnv := ⟨true, free, .ascending, fun _ => List.replicate 16 0xAB, fun _ => true⟩

/-- Non-vacuity of C47: three answers from two nodes (the first node answers again with another object),
one of them while the controller is locked; the history runs, and this is what the specification says
about it. -/
example (b : Build) (ω₀ : HashOrder) (n : Node Unit) :
    let a₁ : SocketAddr := ⟨.v4 1, 3610⟩
    let a₂ : SocketAddr := ⟨.v4 2, 3610⟩
    let l := [(exCall true, exAnswer a₁ [1, 2, 0x90, 1]), (exCall true, exAnswer a₂ [2, 2, 0x90, 1, 2, 0x88, 3]),
      (exCall false, exAnswer a₂ [0]), (exCall true, exAnswer a₁ [1, 2, 0x90, 5])]
    let ops : List (HostOp Unit) := l.map (fun x => .call .controller x.1 x.2)
    (∃ db h, standardDb b ω₀ = .ok db ∧ UuidsOk ops ∧ (Host.newController n).run b db ops = .ok (h, [])) ∧
    knownNodes (profileMessages ops) = [(a₂, [0x029001, 0x028803, 0x0EF001]), (a₁, [0x029005, 0x0EF001])] := by
  simp only []
  constructor
  · obtain ⟨db, hdb, _⟩ := C21_builds b ω₀
    obtain ⟨h, hh⟩ := C47_never_panics b ω₀ db hdb n
      [(exCall true, exAnswer ⟨.v4 1, 3610⟩ [1, 2, 0x90, 1]), (exCall true, exAnswer ⟨.v4 2, 3610⟩ [2, 2, 0x90, 1, 2, 0x88, 3]),
        (exCall false, exAnswer ⟨.v4 2, 3610⟩ [0]), (exCall true, exAnswer ⟨.v4 1, 3610⟩ [1, 2, 0x90, 5])]
      (by
        intro x hx i
        simp only [List.mem_cons, List.not_mem_nil, or_false] at hx
        rcases hx with rfl | rfl | rfl | rfl <;> rfl)
    refine ⟨db, h, hdb, ?_, hh⟩
    intro o e m hm i
    simp only [List.map_cons, List.map_nil, List.mem_cons, List.not_mem_nil, or_false] at hm
    rcases hm with hm | hm | hm | hm <;> (injection hm with _ he _; rw [he]; rfl)
  · decide +kernel

/-! ## C48 -/

/-- C48 is false: `stop` never changes the list of discovered nodes, so `nodes()` returns afterwards what it
would have returned before. -/
theorem C48_fails (b : Build) (ω : HashOrder) (h h' : Host S) (r : Bool) (hs : h.stop = .ok (r, h')) :
    h'.remotes = h.remotes ∧ h'.nodes b ω = h.nodes b ω := by
  have : h'.remotes = h.remotes := by
    obtain ⟨r', hr', hs⟩ := Res.bind_eq_ok.mp hs
    split at hs <;> (simp only [Res.pure_eq, Res.ok.injEq, Prod.mk.injEq] at hs; rw [← hs.2])
  exact ⟨this, by unfold Host.nodes; rw [this]⟩

/-- C48, the part that holds: a controller that has discovered nothing lists nothing after `stop`, and a successful
`stop` closes every socket, so the list no longer changes. Missing: `stop` does not clear a non-empty list
(`C48_fails`). -/
theorem C48_stop_partial (b : Build) (ω : HashOrder) (h h' : Host S) (r : Bool) (hs : h.stop = .ok (r, h')) :
    (h.remotes = [] → h'.nodes b ω = .ok []) ∧
    (ThreadsOk h.node.transport → r = true ∧ h'.node.transport.ucast = [] ∧ h'.node.transport.mcast = []) := by
  refine ⟨fun he => ?_, fun ht => ?_⟩
  · rw [(C48_fails b ω h h' r hs).2]
    unfold Host.nodes
    rw [he]; rfl
  · unfold Host.stop at hs
    simp only [(C42_stop h.node).1 ht, Res.bind_ok, Bool.not_true, Bool.false_eq_true, if_false, Res.pure_eq,
      Res.ok.injEq, Prod.mk.injEq] at hs
    rw [← hs.2]
    exact ⟨hs.1.symm, rfl, rfl⟩

/-- Non-vacuity of C48: a controller that knows a node is stopped. -/
example : ∃ n, exNode [] = .ok n ∧
    let h : Host Unit := ⟨n, [⟨⟨.v4 1, 3610⟩, [Object.fromCode 0x029001]⟩], []⟩
    ∃ h', h.stop = .ok (true, h') ∧ h'.remotes.map entry = [(⟨.v4 1, 3610⟩, [0x029001])] := by
  refine ⟨_, rfl, _, rfl, ?_⟩ <;> decide +kernel

/-! ## C49 -/

theorem updateTid_fields (n : Node S) (m : Message) :
    (n.updateTid m).1.seoj = m.seoj ∧ (n.updateTid m).1.deoj = m.deoj ∧ (n.updateTid m).1.esvByte = m.esvByte ∧
    (n.updateTid m).1.properties = m.properties ∧ (n.updateTid m).1.setProperties = m.setProperties ∧
    (n.updateTid m).1.getProperties = m.getProperties ∧ (n.updateTid m).1.isFormat1 = m.isFormat1 ∧
    (n.updateTid m).1.sender = m.sender ∧
    (n.updateTid m).1.tid = if m.tid = 0 then n.lastTid + 1 else m.tid := by
  rw [Node.updateTid_eq]
  by_cases h : m.tid = 0
  · rw [if_pos h, if_pos h]
    exact ⟨rfl, rfl, rfl, rfl, rfl, rfl, rfl, rfl, (C09_header_accessors m (n.lastTid + 1) 0 .Unknown).1⟩
  · rw [if_neg h, if_neg h]
    exact ⟨rfl, rfl, rfl, rfl, rfl, rfl, rfl, rfl, rfl⟩

/-- C49: a message sent by the controller goes to the remote node's IP address at port 3610, with the node
profile as SEOJ and a TID if it had none; everything else is unchanged. -/
theorem C49_send (ok : Nat → Bool) (h : Host S) (r : RemoteNode) (msg : Message) :
    let s := h.sendMessage ok true r msg
    let used := s.2.1
    used.seoj = 0x0EF001 ∧ used.deoj = msg.deoj ∧ used.esvByte = msg.esvByte ∧
    used.properties = msg.properties ∧ used.setProperties = msg.setProperties ∧
    used.getProperties = msg.getProperties ∧
    used.tid = (if msg.tid = 0 then h.node.lastTid + 1 else msg.tid) ∧
    replies s.2.2.2 = [used] ∧
    (∀ t ∈ txs s.2.2.2, t.to = ⟨r.addr.ip, 3610⟩ ∧ t.bytes = used.bytes) ∧
    (s.1 = true ↔ txs s.2.2.2 ≠ []) ∧ s.2.2.1.remotes = h.remotes ∧
    s.2.2.1.node.objects = h.node.objects := by
  have hf := updateTid_fields h.node (msg.setSeoj nodeProfileCode)
  have hacc := C09_header_accessors msg 0 nodeProfileCode .Unknown
  have hseoj : (msg.setSeoj nodeProfileCode).seoj = 0x0EF001 := UInt32.toNat.inj (by rw [hacc.2.1]; rfl)
  have hs : h.sendMessage ok true r msg =
      let s := h.node.sendMessage ok ⟨r.addr.ip, port⟩ (msg.setSeoj nodeProfileCode)
      (s.1, s.2.1, { h with node := s.2.2.1 }, s.2.2.2) := rfl
  rw [hs]
  simp only [Node.sendMessage]
  refine ⟨hf.1.trans hseoj, hf.2.1, hf.2.2.1, hf.2.2.2.1, hf.2.2.2.2.1, hf.2.2.2.2.2.1, hf.2.2.2.2.2.2.2.2,
    replies_handed _ _ _, ?_, ?_, trivial, Node.updateTid_objects _ _⟩
  · intro t ht
    rw [txs_handed_cons] at ht
    rcases Manager.send_cases ok (h.node.updateTid (msg.setSeoj nodeProfileCode)).2.transport ⟨r.addr.ip, port⟩
      (h.node.updateTid (msg.setSeoj nodeProfileCode)).1 with ⟨_, h0⟩ | ⟨_, s, _, h0⟩
    · rw [h0] at ht; simp at ht
    · rw [h0] at ht
      rw [List.mem_singleton.mp ht]; exact ⟨rfl, rfl⟩
  · rw [txs_handed_cons]
    rcases Manager.send_cases ok (h.node.updateTid (msg.setSeoj nodeProfileCode)).2.transport ⟨r.addr.ip, port⟩
      (h.node.updateTid (msg.setSeoj nodeProfileCode)).1 with ⟨h1, h0⟩ | ⟨h1, s, _, h0⟩
    · rw [h0, h1]; simp
    · rw [h0, h1]; simp

/-- C49: the same for posted messages; their response goes to a fresh channel. -/
theorem C49_post (ok : Nat → Bool) (h : Host S) (r : RemoteNode) (msg : Message) :
    let s := h.postMessage ok r msg
    let used := s.2.1
    used.seoj = 0x0EF001 ∧ used.deoj = msg.deoj ∧ used.esvByte = msg.esvByte ∧
    used.properties = msg.properties ∧ used.setProperties = msg.setProperties ∧
    used.getProperties = msg.getProperties ∧
    used.tid = (if msg.tid = 0 then h.node.lastTid + 1 else msg.tid) ∧
    replies s.2.2.2 = [used] ∧
    (∀ t ∈ txs s.2.2.2, t.to = ⟨r.addr.ip, 3610⟩ ∧ t.bytes = used.bytes) ∧
    s.2.2.1.node.post = some s.1 ∧ s.2.2.1.remotes = h.remotes ∧
    s.2.2.1.node.objects = h.node.objects := by
  have hf := updateTid_fields h.node (msg.setSeoj nodeProfileCode)
  have hacc := C09_header_accessors msg 0 nodeProfileCode .Unknown
  have hseoj : (msg.setSeoj nodeProfileCode).seoj = 0x0EF001 := UInt32.toNat.inj (by rw [hacc.2.1]; rfl)
  have hs : h.postMessage ok r msg =
      let s := h.node.postMessage ok ⟨r.addr.ip, port⟩ (msg.setSeoj nodeProfileCode)
      (s.1, s.2.1, { h with node := s.2.2.1 }, s.2.2.2) := rfl
  rw [hs]
  simp only [Node.postMessage]
  refine ⟨hf.1.trans hseoj, hf.2.1, hf.2.2.1, hf.2.2.2.1, hf.2.2.2.2.1, hf.2.2.2.2.2.1, hf.2.2.2.2.2.2.2.2,
    replies_handed _ _ _, ?_, trivial, trivial, Node.updateTid_objects _ _⟩
  intro t ht
  rw [txs_handed_cons] at ht
  rcases Manager.send_cases ok (h.node.updateTid (msg.setSeoj nodeProfileCode)).2.transport ⟨r.addr.ip, port⟩
    (h.node.updateTid (msg.setSeoj nodeProfileCode)).1 with ⟨_, h0⟩ | ⟨_, s, _, h0⟩
  · rw [h0] at ht; simp at ht
  · rw [h0] at ht
    rw [List.mem_singleton.mp ht]; exact ⟨rfl, rfl⟩

/-- The message of a search. -/
theorem search_fields (h : Host S) (ok : Nat → Bool) (code : UInt32) :
    ∃ used, replies (h.searchObject ok code).2.2 = [used] ∧ used.isFormat1 = true ∧
      used.tid = h.node.lastTid + 1 ∧ used.seoj = 0x0EF001 ∧ used.deoj.toNat = code.toNat % 2 ^ 24 ∧
      used.esvByte = 0x62 ∧ used.properties = [⟨0xD6, []⟩] ∧ used.setProperties = [] ∧ used.getProperties = [] ∧
      txs (h.searchObject ok code).2.2 = (h.node.transport.notify ok used).2 ∧
      (h.searchObject ok code).1 = (h.node.transport.notify ok used).1 ∧
      (h.searchObject ok code).2.1.remotes = h.remotes := by
  let m := (searchMessage.setSeoj nodeProfileCode).setDeoj code
  have hf := updateTid_fields h.node m
  have hacc := C09_header_accessors (searchMessage.setSeoj nodeProfileCode) 0 code .Unknown
  have htid : m.tid = 0 := by
    show (searchMessage.setSeoj nodeProfileCode).tid = 0
    decide +kernel
  rw [if_pos htid] at hf
  refine ⟨(h.node.updateTid m).1, ?_, hf.2.2.2.2.2.2.1.trans rfl, hf.2.2.2.2.2.2.2.2, hf.1.trans ?_, ?_,
    hf.2.2.1.trans rfl, hf.2.2.2.1.trans rfl, hf.2.2.2.2.1.trans rfl, hf.2.2.2.2.2.1.trans rfl, ?_, ?_, rfl⟩
  · exact replies_handed _ _ _
  · show (searchMessage.setSeoj nodeProfileCode).seoj = _
    decide +kernel
  · rw [hf.2.1]; exact hacc.2.2.1
  · show txs (Out.handed m (h.node.updateTid m).1 :: _) = _
    rw [txs_handed_cons, Node.updateTid_transport]
  · show ((h.node.updateTid m).2.transport.notify ok (h.node.updateTid m).1).1 = _
    rw [Node.updateTid_transport]

/-- C49: a search multicasts, on every interface in turn, a read request for property 0xD6 of the given
object with a new TID. -/
theorem C49_search (ok : Nat → Bool) (h : Host S) (code : UInt32) :
    let s := h.searchObject ok code
    (∀ t ∈ txs s.2.2, t.to = ⟨.v4 0xE0001700, 3610⟩ ∧
      t.bytes = Frame.encode ⟨(h.node.lastTid + 1).toNat, 0x0EF001, code.toNat % 2 ^ 24, 0x62, .single [⟨0xD6, []⟩]⟩) ∧
    (s.1 = true → (txs s.2.2).map (fun t => t.iface) = h.node.transport.mcast.map (fun x => x.ifaddr)) ∧
    s.2.1.remotes = h.remotes := by
  obtain ⟨u, _, hfmt, htid, hseoj, hdeoj, hesv, hp, hsp, hgp, htx, hok, hr⟩ := search_fields h ok code
  simp only []
  rw [htx, hok]
  obtain ⟨k, hk, hk'⟩ := Manager.notify_cases ok h.node.transport u
  refine ⟨?_, ?_, hr⟩
  · intro t ht
    rw [hk] at ht
    obtain ⟨s, _, rfl⟩ := List.mem_map.mp ht
    refine ⟨rfl, ?_⟩
    show u.bytes = _
    rw [Message.bytes_eq_encode u hfmt (by rw [hesv]; decide)]
    unfold frameOf
    rw [htid, hseoj, hdeoj, hesv, hp]
    rfl
  · intro h1
    rw [hk, List.take_of_length_le (hk'.mp h1), List.map_map]
    rfl

/-- Non-vacuity of C49: a running node; each call puts datagrams on the wire. -/
example : ∃ n, exNode [] = .ok n ∧
    let h : Host Unit := ⟨n, [], []⟩
    let r : RemoteNode := ⟨⟨.v4 0xC0A80007, 50000⟩, []⟩
    (h.sendMessage allOk true r (exRequest .ReadRequest 0)).1 = true ∧
    (txs (h.sendMessage allOk true r (exRequest .ReadRequest 0)).2.2.2).map (fun t => t.to) = [⟨.v4 0xC0A80007, 3610⟩] ∧
    (txs (h.postMessage allOk r (exRequest .ReadRequest 9)).2.2.2).length = 1 ∧
    (txs (h.searchObject allOk 0x029001).2.2).map (fun t => t.bytes) = List.replicate 2
      [0x10, 0x81, 0, 6, 0x0E, 0xF0, 1, 2, 0x90, 1, 0x62, 1, 0xD6, 0] := by
  refine ⟨_, rfl, ?_⟩ <;> decide +kernel

/-! ## C51, controller part -/

/-- C51: a message arriving while the controller's mutex is held does not change what the controller
knows; a `send_message` at that time sends nothing and returns false. -/
theorem C51_locked_controller (b : Build) (db : Database) (e : CallEnv) (msg : Message) (h : Host S)
    (he : e.ctrlFree = false) (ok : Nat → Bool) (r : RemoteNode) :
    h.invoke b db e msg .controller = .ok (h, []) ∧ h.sendMessage ok false r msg = (false, msg, h, []) := by
  refine ⟨?_, rfl⟩
  simp only [Host.invoke, he, observeController_other b db e.ω e.uuid false h.remotes (Or.inl rfl), Res.bind_ok,
    Res.pure_eq]

/-- C51: hence a search result arriving while the application holds the controller (for example in
`search` itself, which holds the mutex while it sends) is lost for ever. -/
theorem C51_lost_search_result (b : Build) (ω₀ : HashOrder) (db : Database) (hdb : standardDb b ω₀ = .ok db)
    (n : Node S) (ops : List (HostOp S)) (hu : UuidsOk ops) (h : Host S) (outs : List Out)
    (hrun : (Host.newController n).run b db ops = .ok (h, outs)) (a : SocketAddr)
    (hlocked : ∀ e m, HostOp.call .controller e m ∈ ops → m.sender = a → e.ctrlFree = false) (ω : HashOrder) :
    ∃ l, h.nodes b ω = .ok l ∧ ∀ r ∈ l, r.addr ≠ a := by
  obtain ⟨l, h1, _, h2, _⟩ := C47_node_list b ω₀ db hdb n ops hu h outs hrun ω
  refine ⟨l, h1, ?_⟩
  intro r hr hra
  obtain ⟨m, hm, hma⟩ := (h2 a).mp (List.mem_map.mpr ⟨r, hr, hra⟩)
  unfold profileMessages at hm
  obtain ⟨op, hop, hm⟩ := List.mem_filterMap.mp hm
  split at hm
  · rename_i e m'
    split at hm
    · rename_i hc
      simp only [Option.some.injEq] at hm
      subst hm
      have := hlocked e m' hop hma
      rw [hc.1] at this
      simp at this
    · simp at hm
  · simp at hm

/-- Non-vacuity of C51: the only answer of a node arrives while the controller is locked. -/
example (b : Build) (ω₀ : HashOrder) (n : Node Unit) : ∃ db h, standardDb b ω₀ = .ok db ∧
    (Host.newController n).run b db [.call .controller (exCall false) (exAnswer ⟨.v4 1, 3610⟩ [1, 2, 0x90, 1])] =
      .ok (h, []) := by
  obtain ⟨db, hdb, _⟩ := C21_builds b ω₀
  obtain ⟨h, hh⟩ := C47_never_panics b ω₀ db hdb n [(exCall false, exAnswer ⟨.v4 1, 3610⟩ [1, 2, 0x90, 1])]
    (by
      intro x hx i
      simp only [List.mem_cons, List.not_mem_nil, or_false] at hx
      subst hx; rfl)
  exact ⟨db, h, hdb, hh⟩

end Uecho
