import Verif.Spec.Contended
import Verif.Props.Session
/-!
# What the assumptions of C84 are needed for

Two executions in which the network loses nothing and everybody is running, and yet the answer is not delivered.
-/
namespace Uecho
open Spec
variable {S : Type}

theorem contended_of_prompt {b : Build} {db : Database} {own : IpAddr → Option Nat} {n n' : Net S} {tr : List (Nat × Out)}
    (h : Prompt b db own n tr n') : Contended b db own n tr n' := by
  induction h with
  | refl => exact .refl _
  | step _ h' hr ih => exact .step ih h' hr

/-- Host 0 posts `m` to host 1 and host 1 sends its reply, which is on its way to host 0. -/
theorem pair_half {db : Database} {A B A₁ B₁ : Node Nat} {m rq : Message} {oa ob : List Out} {bs ba : List UInt8}
    (hA : A.transport = ⟨[⟨.v4 0xC0A80001, [.node], .running⟩], []⟩)
    (hB : B.transport = ⟨[⟨.v4 0xC0A80002, [.node], .running⟩], []⟩)
    (ha : A.step .dev (.post ⟨.v4 0xC0A80002, 3610⟩ m allOk) = .ok (A₁, oa))
    (hoa : txs oa = [(⟨.v4 0xC0A80001, ⟨.v4 0xC0A80002, 3610⟩, bs⟩ : Tx)])
    (hr : recvLoop [.datagram bs ⟨.v4 0xC0A80001, 3610⟩] = ([rq], .running))
    (hb : B.observe .dev .ascending allOk rq = .ok (B₁, ob))
    (hob : txs ob = [(⟨.v4 0xC0A80002, ⟨.v4 0xC0A80001, 3610⟩, ba⟩ : Tx)]) :
    A₁.transport = A.transport ∧ B₁.transport = B.transport ∧ AtRest exOwn (exPair A B) ∧
    Running (exPair A B) 0 ∧ Running (exPair A B) 1 ∧
    ∃ n₁, Posts (.node (.post ⟨.v4 0xC0A80002, 3610⟩ m allOk) : HostOp Nat) (.v4 0xC0A80002) m ∧
      Net.Api .dev db (exPair A B) 0 (.node (.post ⟨.v4 0xC0A80002, 3610⟩ m allOk)) oa n₁ ∧
      Delivered exOwn (exPair A B) oa n₁.flying ∧ Routed exOwn (exPair A B) oa n₁ ∧
      Prompt .dev db exOwn n₁ (ob.map (fun o => (1, o)))
        { exPair A₁ B₁ with flying := [⟨⟨.v4 0xC0A80002, 3610⟩, 0, 0, ba⟩] } := by
  have hA₁ : A₁.transport = A.transport := by
    simp only [Node.step, Node.postMessage, Res.ok.injEq, Prod.mk.injEq] at ha
    rw [← ha.1]; simp [Node.updateTid_transport]
  have hB₁ : B₁.transport = B.transport := (observe_frame hb).2.1
  have toa : ∀ t, Out.tx t ∈ oa → t = ⟨.v4 0xC0A80001, ⟨.v4 0xC0A80002, 3610⟩, bs⟩ := by
    intro t ht; have := mem_txs.mp ht; rw [hoa] at this; simpa using this
  have tob : ∀ t, Out.tx t ∈ ob → t = ⟨.v4 0xC0A80002, ⟨.v4 0xC0A80001, 3610⟩, ba⟩ := by
    intro t ht; have := mem_txs.mp ht; rw [hob] at this; simpa using this
  have moa : Out.tx ⟨.v4 0xC0A80001, ⟨.v4 0xC0A80002, 3610⟩, bs⟩ ∈ oa := by rw [mem_txs, hoa]; simp
  have mob : Out.tx ⟨.v4 0xC0A80002, ⟨.v4 0xC0A80001, 3610⟩, ba⟩ ∈ ob := by rw [mem_txs, hob]; simp
  have hl1 : Listening (exPair A B) 1 0 :=
    ⟨⟨.v4 0xC0A80002, [.node], .running⟩, by simp [exPair, Host.ofNode, Host.threads, hB], rfl⟩
  have hl0 : Listening (exPair A B) 0 0 :=
    ⟨⟨.v4 0xC0A80001, [.node], .running⟩, by simp [exPair, Host.ofNode, Host.threads, hA], rfl⟩
  have hq : AtRest exOwn (exPair A B) := by
    refine ⟨rfl, rfl, ?_⟩
    intro i s hs
    unfold exPair at hs
    simp only [] at hs
    split at hs
    · rename_i h; subst h
      simp only [Host.threads, Host.ofNode, hA, List.append_nil, List.mem_cons, List.not_mem_nil, or_false] at hs
      rw [hs]; rfl
    · split at hs
      · rename_i h; subst h
        simp only [Host.threads, Host.ofNode, hB, List.append_nil, List.mem_cons, List.not_mem_nil, or_false] at hs
        rw [hs]; rfl
      · simp [Host.threads, Manager.new] at hs
  have api : Net.Api .dev db (exPair A B) 0 (.node (.post ⟨.v4 0xC0A80002, 3610⟩ m allOk)) oa _ :=
    .mk { (exPair A B).hosts 0 with node := A₁ } oa [⟨⟨.v4 0xC0A80001, 3610⟩, 1, 0, bs⟩] trivial
      (by simp [Host.step, exPair, Host.ofNode, ha])
      (by intro p hp
          simp only [List.mem_cons, List.not_mem_nil, or_false] at hp
          subst hp
          exact ⟨_, moa, rfl, rfl⟩)
  have run0 : Prompt .dev db exOwn _ [] _ := .refl ({ (exPair A B).setHost 0 { (exPair A B).hosts 0 with node := A₁ } with
      flying := (exPair A B).flying ++ [⟨⟨.v4 0xC0A80001, 3610⟩, 1, 0, bs⟩] } : Net Nat)
  have run1 := prompt_round run0 (p := ⟨⟨.v4 0xC0A80001, 3610⟩, 1, 0, bs⟩) (rest := [])
    (s := ⟨.v4 0xC0A80002, [.node], .running⟩) [⟨⟨.v4 0xC0A80002, 3610⟩, 0, 0, ba⟩] rfl rfl rfl
    (by simp [Net.setHost, exPair, Host.ofNode, Host.threads, hB]) rfl rfl hr
    (by simpa [Net.setHost, exPair, Host.ofNode] using hb)
    (by intro p hp
        simp only [List.mem_cons, List.not_mem_nil, or_false] at hp
        subst hp
        exact ⟨_, mob, rfl, rfl, by intro j hj; revert hj; simp [exOwn]⟩)
    (by intro t ht j hj
        rw [tob t ht] at hj
        have : j = 0 := by simpa [exOwn] using hj.symm
        subst this
        refine ⟨_, List.mem_cons_self, rfl, by rw [tob t ht], by rw [tob t ht], ⟨.v4 0xC0A80001, [.node], .running⟩, ?_, rfl⟩
        simp [Net.setHost, exPair, Host.ofNode, Host.threads, hA₁, hA])
  refine ⟨hA₁, hB₁, hq, ⟨⟨0, hl0⟩, by simp [exPair, Host.ofNode, hA], ?_, fun _ => rfl⟩,
    ⟨⟨0, hl1⟩, by simp [exPair, Host.ofNode, hB], ?_, fun _ => rfl⟩, _, .node ⟨.v4 0xC0A80002, 3610⟩ m allOk (fun _ => rfl), api,
    ⟨?_, ?_⟩, ?_, ?_⟩
  · intro s hs
    have : s = ⟨.v4 0xC0A80001, [.node], .running⟩ := by simpa [exPair, Host.threads, Host.ofNode, hA] using hs
    rw [this]; rfl
  · intro s hs
    have : s = ⟨.v4 0xC0A80002, [.node], .running⟩ := by simpa [exPair, Host.threads, Host.ofNode, hB] using hs
    rw [this]; rfl
  · intro p hp
    have hp : p = ⟨⟨.v4 0xC0A80001, 3610⟩, 1, 0, bs⟩ := by simpa [exPair] using hp
    subst hp
    exact ⟨_, moa, rfl, rfl⟩
  · intro t ht j hj _
    rw [toa t ht] at hj
    have : j = 1 := by simpa [exOwn] using hj.symm
    subst this
    exact ⟨⟨⟨.v4 0xC0A80001, 3610⟩, 1, 0, bs⟩, by simp [exPair], rfl, by rw [toa t ht], by rw [toa t ht], hl1⟩
  · intro p hp
    have hp : p = ⟨⟨.v4 0xC0A80001, 3610⟩, 1, 0, bs⟩ := by simpa [exPair] using hp
    subst hp
    exact Or.inr ⟨_, moa, rfl, rfl, by intro j hj; revert hj; simp [exOwn]⟩
  · have hnet : ∀ (x y : Net Nat) (c d : List (Nat × Out)) (z : Net Nat), x = y → c = d → Prompt .dev db exOwn z c x →
        Prompt .dev db exOwn z d y := fun _ _ _ _ _ e f h => e ▸ f ▸ h
    refine hnet _ _ _ _ _ ?_ ?_ run1
    · unfold exPair Net.setHost
      simp only [List.nil_append, Net.mk.injEq, and_true]
      funext k
      by_cases h0 : k = 0
      · subst h0; simp [Host.ofNode]
      · by_cases h1 : k = 1
        · subst h1; simp [Host.ofNode]
        · simp [h0, h1]
    · rfl

/-- No delivery by host 1 is one at host 0. -/
theorem no_deliveries_other (ob : List Out) : deliveries (outsOf 0 (ob.map (fun o => ((1 : Nat), o)))) = [] := by
  have : (ob.map (fun o => ((1 : Nat), o))).filter (fun x => x.1 == 0) = [] := by
    rw [List.filter_eq_nil_iff]
    intro x hx
    obtain ⟨o, _, rfl⟩ := List.mem_map.mp hx
    simp
  simp [outsOf, deliveries, this]

/-- C84 does not hold without the assumption that no receiver thread finds the mutex of a node taken: there are a network
at rest, a read request as in C84 and an execution that loses nothing on the way and in which the asked host answers with a
success, after which the network is at rest and nothing has been delivered to the caller, because its receiver thread
came with the answer at a moment when the application was using the node. (The caller then waits for its timeout.) -/
theorem C84_contended_fails (db : Database) : ∃ (n₀ n₁ n₂ : Net Nat) (outs : List Out) (tr : List (Nat × Out)) (a : Tx),
    AsksFor .dev db exOwn n₀ 0 1 exAsk outs n₁ ∧ Contended .dev db exOwn n₁ tr n₂ ∧
    (n₂.flying = [] ∧ n₂.busy = []) ∧ (1, Out.tx a) ∈ tr ∧ a.bytes = exReplied ∧ exOwn a.to.ip = some 0 ∧
    deliveries (outsOf 0 tr) = [] ∧ Listening n₂ 0 0 := by
  obtain ⟨o, A, oa, rq, B, ob, rs, ho, hk, hk2, ha, hoa, hr, hb, hob, hm, hcode⟩ :
      ∃ o A oa rq B ob rs, exLight = .ok o ∧ (∀ k : UInt8, ((o.properties k).all (fun p => p.code == k)) = true) ∧
      (∀ k : UInt8, ((o.properties k).all (fun p => decide (0x80 ≤ p.code))) = true) ∧
      exCaller.step .dev (.post ⟨.v4 0xC0A80002, 3610⟩ exAsk allOk) = .ok (A, oa) ∧
      txs oa = [(⟨.v4 0xC0A80001, ⟨.v4 0xC0A80002, 3610⟩, (exAsk.setTid 1).bytes⟩ : Tx)] ∧
      recvLoop [.datagram (exAsk.setTid 1).bytes ⟨.v4 0xC0A80001, 3610⟩] = ([rq], .running) ∧
      (exCounting o).observe .dev .ascending allOk rq = .ok (B, ob) ∧
      txs ob = [(⟨.v4 0xC0A80002, ⟨.v4 0xC0A80001, 3610⟩, exReplied⟩ : Tx)] ∧
      recvLoop [.datagram exReplied ⟨.v4 0xC0A80002, 3610⟩] = ([rs], .running) ∧ o.code = 0x029001 := by
    refine ⟨_, _, _, _, _, _, _, rfl, by decide +kernel, by decide +kernel, rfl, by decide +kernel, rfl, rfl, by decide +kernel,
      rfl, by decide +kernel⟩
  obtain ⟨hA, hB, hq, r0, r1, n₁, hpost, api, hdel, hrou, run⟩ := pair_half (db := db) rfl rfl ha hoa hr hb hob
  have c1 := contended_of_prompt run
  have h1 := Reliable.receive (b := .dev) (db := db) (own := exOwn)
    (n := ({ exPair A B with flying := [⟨⟨.v4 0xC0A80002, 3610⟩, 0, 0, exReplied⟩] } : Net Nat)) [] []
    ⟨⟨.v4 0xC0A80002, 3610⟩, 0, 0, exReplied⟩ ⟨.v4 0xC0A80001, [.node], .running⟩ rfl
    (by simp [exPair, Host.ofNode, Host.threads, hA, exCaller]) rfl (by intro q hq; simp [exPair] at hq)
  have hx : ({ exPair A B with flying := [⟨⟨.v4 0xC0A80002, 3610⟩, 0, 0, exReplied⟩] } : Net Nat).received
      ⟨⟨.v4 0xC0A80002, 3610⟩, 0, 0, exReplied⟩ ⟨.v4 0xC0A80001, [.node], .running⟩ [] =
      { exPair A B with busy := [⟨0, 0, rs, [.node]⟩] } := by
    unfold Net.received; simp only [hm]; rfl
  simp only [List.append_nil] at h1
  rw [hx] at h1
  have c2 := Contended.step c1 h1 (by intro p hp; simp [exPair] at hp)
  have c3 := Contended.taken c2 [] [] ⟨0, 0, rs, [.node]⟩ [] ⟨false, true, .ascending, fun _ => List.replicate 16 0, allOk⟩
    _ _ rfl rfl rfl rfl (by simp only [Host.invoke, Node.observeTry, Bool.not_false, if_true, Res.bind_ok, Res.pure_eq]; rfl)
  have c4 := Contended.step c3 (Reliable.done [] [] ⟨0, 0, rs, []⟩ rfl rfl) (by intro p hp; simp [exPair, Net.setHost] at hp)
  refine ⟨_, n₁, _, oa, _, ⟨.v4 0xC0A80002, ⟨.v4 0xC0A80001, 3610⟩, exReplied⟩, ⟨hq, r0, r1, ?_, ?_, by decide +kernel, by decide +kernel,
    by decide +kernel, by simp [exPair, Host.ofNode, exCaller], ⟨_, _, hpost, rfl, api⟩, hdel, hrou⟩, c4, ⟨rfl, rfl⟩, ?_, rfl, rfl, ?_, ?_⟩
  · intro x hx
    have hx : x = o := by simpa [exPair, Host.ofNode, exCounting] using hx
    subst hx
    refine ⟨?_, Or.inr ?_⟩
    · intro k p hp
      have := hk k
      rw [hp] at this
      simpa using this
    · intro k p hp
      have := hk2 k
      rw [hp] at this
      simpa using this
  · refine ⟨o, by simp [exPair, Host.ofNode, exCounting], ?_⟩
    rw [hcode]; decide +kernel
  · have mob : Out.tx ⟨.v4 0xC0A80002, ⟨.v4 0xC0A80001, 3610⟩, exReplied⟩ ∈ ob := by rw [mem_txs, hob]; simp
    simp [mob]
  · simpa using no_deliveries_other ob
  · exact ⟨⟨.v4 0xC0A80001, [.node], .running⟩, by simp [exPair, Net.setHost, Host.ofNode, Host.threads, hA, exCaller], rfl⟩

/-- A write-read request (service 0x6E) for a property the object does not have. -/
def exWriteRead : Message := ((exPost .WriteReadRequest).addPropertySet ⟨0xB1, [0x42]⟩).addPropertyGet ⟨0xB0, []⟩
/-- The answer: an error (service 0x5E) that repeats the properties. -/
def exRefused : List UInt8 := [0x10, 0x81, 0, 1, 0x02, 0x90, 0x01, 0, 0, 0, 0x5E, 2, 0xB1, 1, 0x42, 0xB1, 1, 0x42]

/-- C84 does not hold for write-read requests (service 0x6E): a running host posts such a request, well-formed, to another
running host, which refuses it because its object does not have the property; nothing is lost, no mutex is taken; and
the error answer, instead of being delivered, kills the receiver thread of the caller. -/
theorem C84_write_read_fails (db : Database) : ∃ (n₀ n₁ n₂ : Net Nat) (outs : List Out) (tr : List (Nat × Out)) (op : HostOp Nat)
    (to : IpAddr) (a : Tx),
    AtRest exOwn n₀ ∧ Running n₀ 0 ∧ Running n₀ 1 ∧ (∃ o ∈ (n₀.hosts 1).node.objects, o.code = exWriteRead.deoj) ∧
    Posts op to exWriteRead ∧ exOwn to = some 1 ∧ Net.Api .dev db n₀ 0 op outs n₁ ∧ Delivered exOwn n₀ outs n₁.flying ∧
    Routed exOwn n₀ outs n₁ ∧ Prompt .dev db exOwn n₁ tr n₂ ∧ (n₂.flying = [] ∧ n₂.busy = []) ∧
    (1, Out.tx a) ∈ tr ∧ a.bytes = exRefused ∧ exOwn a.to.ip = some 0 ∧
    deliveries (outsOf 0 tr) = [] ∧ Listening n₀ 0 0 ∧ ∀ k, ¬ Listening n₂ 0 k := by
  obtain ⟨o, A, oa, bs, rq, B, ob, ho, ha, hoa, hr, hb, hob, hm, hcode⟩ :
      ∃ o A oa bs rq B ob, exLight = .ok o ∧
      exCaller.step .dev (.post ⟨.v4 0xC0A80002, 3610⟩ exWriteRead allOk) = .ok (A, oa) ∧
      txs oa = [(⟨.v4 0xC0A80001, ⟨.v4 0xC0A80002, 3610⟩, bs⟩ : Tx)] ∧
      recvLoop [.datagram bs ⟨.v4 0xC0A80001, 3610⟩] = ([rq], .running) ∧
      (exCounting o).observe .dev .ascending allOk rq = .ok (B, ob) ∧
      txs ob = [(⟨.v4 0xC0A80002, ⟨.v4 0xC0A80001, 3610⟩, exRefused⟩ : Tx)] ∧
      recvLoop [.datagram exRefused ⟨.v4 0xC0A80002, 3610⟩] = ([], .panicked) ∧ o.code = 0x029001 := by
    refine ⟨_, _, _, (exWriteRead.setTid 1).bytes, _, _, _, rfl, rfl, by decide +kernel, rfl, rfl, by decide +kernel,
      rfl, by decide +kernel⟩
  obtain ⟨hA, hB, hq, r0, r1, n₁, hpost, api, hdel, hrou, run⟩ := pair_half (db := db) rfl rfl ha hoa hr hb hob
  have h1 := Reliable.receive (b := .dev) (db := db) (own := exOwn)
    (n := ({ exPair A B with flying := [⟨⟨.v4 0xC0A80002, 3610⟩, 0, 0, exRefused⟩] } : Net Nat)) [] []
    ⟨⟨.v4 0xC0A80002, 3610⟩, 0, 0, exRefused⟩ ⟨.v4 0xC0A80001, [.node], .running⟩ rfl
    (by simp [exPair, Host.ofNode, Host.threads, hA, exCaller]) rfl (by intro q hq; simp [exPair] at hq)
  have hx : ({ exPair A B with flying := [⟨⟨.v4 0xC0A80002, 3610⟩, 0, 0, exRefused⟩] } : Net Nat).received
      ⟨⟨.v4 0xC0A80002, 3610⟩, 0, 0, exRefused⟩ ⟨.v4 0xC0A80001, [.node], .running⟩ [] =
      (exPair A B).setHost 0 (((exPair A B).hosts 0).killThread 0) := by
    unfold Net.received; simp only [hm]; rfl
  simp only [List.append_nil] at h1
  rw [hx] at h1
  have c2 := Prompt.step run h1 (by intro p hp; simp [exPair, Net.setHost] at hp)
  refine ⟨_, n₁, _, oa, _, _, _, ⟨.v4 0xC0A80002, ⟨.v4 0xC0A80001, 3610⟩, exRefused⟩, hq, r0, r1, ?_, hpost, rfl, api, hdel, hrou, c2,
    ⟨rfl, rfl⟩, ?_, rfl, rfl, ?_, ⟨_, rfl, rfl⟩, ?_⟩
  · refine ⟨o, by simp [exPair, Host.ofNode, exCounting], ?_⟩
    rw [hcode]; decide +kernel
  · have mob : Out.tx ⟨.v4 0xC0A80002, ⟨.v4 0xC0A80001, 3610⟩, exRefused⟩ ∈ ob := by rw [mem_txs, hob]; simp
    simp [mob]
  · simpa using no_deliveries_other ob
  · rintro k ⟨s, hs, hr⟩
    have : (((exPair A B).setHost 0 (((exPair A B).hosts 0).killThread 0)).hosts 0).threads =
        [⟨.v4 0xC0A80001, [.node], .panicked⟩] := by
      simp [exPair, Net.setHost, Host.ofNode, Host.killThread, Host.threads, hA, exCaller]
    rw [this] at hs
    cases k with
    | zero => simp at hs; subst hs; simp at hr
    | succ k => simp at hs

end Uecho
