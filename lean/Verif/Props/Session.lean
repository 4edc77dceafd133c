import Verif.Spec.Session
import Verif.Props.Answered
/-!
# Sessions of remote calls: C85
-/
namespace Uecho
open Spec
variable {S : Type}

/-! ## What a call leaves alone -/

/-- Nothing but the objects of host `j`, pending posts, and what controllers have discovered is different in `x`. -/
structure KeptBy (b : Build) (j : Nat) (d : UInt32) (n₁ x : Net S) : Prop where
  transport : ∀ k, (x.hosts k).node.transport = (n₁.hosts k).node.transport
  handlers : ∀ k, (x.hosts k).node.handlers = (n₁.hosts k).node.handlers
  tids : ∀ k, (x.hosts k).node.lastTid = (n₁.hosts k).node.lastTid
  chans : ∀ k, (x.hosts k).node.nextChan = (n₁.hosts k).node.nextChan
  objects : ∀ k, k ≠ j → (x.hosts k).node.objects = (n₁.hosts k).node.objects
  alike : AlikeAll (n₁.hosts j).node.objects (x.hosts j).node.objects
  keys : ∀ o ∈ (x.hosts j).node.objects, KeysOk o
  valid : ∀ o ∈ (x.hosts j).node.objects, ValidObject b o
  others : ∀ (o : Object) (v : Values), o.code ≠ d → Implements (n₁.hosts j).node o v → Implements (x.hosts j).node o v
  sound : x.poisoned = n₁.poisoned

/-- The observers of a host that has taken a copy of the request, or an answer, do not panic. -/
theorem ask_invoke_ok {b : Build} {ω₀ : HashOrder} {db : Database} (hdb : standardDb b ω₀ = .ok db) {h : Host S}
    {m : Message} (hv : m.esvByte ≠ 0x5E) (hm : Received m)
    (hn : isRequestByte m.esvByte = true → ∀ o ∈ h.node.objects, ValidObject b o)
    (hresp : isRequestByte m.esvByte = false → isResponseByte m.esvByte = true) {e : CallEnv}
    (hu : ∀ i, (e.uuid i).length = 16) (o : ObserverRef) : h.invoke b db e m o ≠ .panic := by
  cases o with
  | controller =>
    obtain ⟨r, h1⟩ := observeController_ok hdb e hu h.remotes m
    simp only [Host.invoke, h1, Res.bind_ok, Res.pure_eq]
    nofun
  | device => nofun
  | user k => nofun
  | node =>
    simp only [Host.invoke, Node.observeTry]
    split
    · simp only [Res.bind_ok, Res.pure_eq]; nofun
    · cases ho : h.node.observe b e.ω e.ok m with
      | ok r => simp only [Res.bind_ok, Res.pure_eq]; nofun
      | panic =>
        exfalso
        cases hr : isRequestByte m.esvByte with
        | true => exact hv ((C57_receive_panics_iff b e.ω e.ok h.node (hn hr) m hm).mp ho).1
        | false =>
          obtain ⟨hf, hs⟩ := received_fields hm
          obtain ⟨n', outs, h1⟩ := observe_response_ok b e.ω e.ok h.node m (hresp hr) hf hs hv
          rw [h1] at ho; simp at ho

/-- Host `i` has posted the request `e` (0x61 or 0x62) with TID `t` to host `j`, possibly itself. -/
structure CallEnds (b : Build) (i j : Nat) (e : UInt8) (t : UInt16) (n₁ : Net S) : Prop where
  esv : e = 0x61 ∨ e = 0x62
  tid : t ≠ 0
  asker : Running n₁ i
  asked : Running n₁ j
  objects : ∀ o ∈ (n₁.hosts j).node.objects, KeysOk o ∧ ValidObject b o

/-- The only messages around are copies of the request, at host `j`, and of its answers, at host `i`. -/
structure Paths (own : IpAddr → Option Nat) (i j : Nat) (e : UInt8) (t : UInt16) (d : UInt32) (n : Net S) : Prop where
  fly : ∀ p ∈ n.flying, (p.host = j ∧ IsPacket (AskM own i e t d) p) ∨ (p.host = i ∧ IsPacket (RespM t) p)
  busy : ∀ q ∈ n.busy, (q.host = j ∧ AskM own i e t d q.msg) ∨ (q.host = i ∧ RespM t q.msg)

/-- The two cases of a call: to another host, or to the own. -/
theorem asks_paths {b : Build} {db : Database} {own : IpAddr → Option Nat} {n₀ n₁ : Net S} {i j : Nat} {m : Message}
    {outs : List Out} (ha : AsksFor b db own n₀ i j m outs n₁) (hfit : ∀ g u, Out.handed g u ∈ outs → Fits u) :
    CallEnds b i j m.esvByte ((n₀.hosts i).node.lastTid + 1) n₁ ∧
    ∀ tr n, Prompt b db own n₁ tr n → (∀ k g u, (k, Out.handed g u) ∈ tr → Fits u) →
      Paths own i j m.esvByte ((n₀.hosts i).node.lastTid + 1) m.deoj n := by
  by_cases hij : i = j
  · subst hij
    obtain ⟨htid, hr, inv0⟩ := asks_self ha hfit
    refine ⟨⟨ha.service, htid, hr, hr, inv0.objects⟩, ?_⟩
    intro tr n hrun hf
    have inv := self_run ha.service htid hr.calls hr.sends hr.listens inv0 hrun hf
    refine ⟨fun p hp => ?_, fun q hq => ?_⟩
    · obtain ⟨h1, h2 | h2⟩ := inv.fly p hp
      · exact Or.inl ⟨h1, h2⟩
      · exact Or.inr ⟨h1, h2⟩
    · obtain ⟨h1, h2 | h2⟩ := inv.busy q hq
      · exact Or.inl ⟨h1, h2⟩
      · exact Or.inr ⟨h1, h2⟩
  · obtain ⟨env, inv0⟩ := asks_inv ha hij hfit
    refine ⟨⟨env.esv, env.tid, env.asker, env.asked, env.objects⟩, ?_⟩
    intro tr n hrun hf
    have inv := ask_run env inv0 hrun hf
    exact ⟨inv.fly, inv.busy⟩

theorem kept_step {b : Build} {ω₀ : HashOrder} {db : Database} (hdb : standardDb b ω₀ = .ok db)
    {own : IpAddr → Option Nat} {i j : Nat} {e : UInt8} {t : UInt16} {d : UInt32}
    {n₁ n n' : Net S} {k : Nat} {outs : List Out} (env : CallEnds b i j e t n₁)
    (inv : Paths own i j e t d n) (hp : ∀ h ∈ (n₁.hosts j).node.handlers, Passive h)
    (hst : ∀ h ∈ (n₁.hosts j).node.handlers, Stateless h)
    (kept : KeptBy b j d n₁ n) (h : Reliable b db own n k outs n') : KeptBy b j d n₁ n' := by
  have same : ∀ y : Net S, y.hosts = n.hosts → y.poisoned = n.poisoned → KeptBy b j d n₁ y := by
    intro y hy hpo
    obtain ⟨k1, k2, k3, k4, k5, k6, k7, k8, k9, k10⟩ := kept
    exact ⟨by rw [hy]; exact k1, by rw [hy]; exact k2, by rw [hy]; exact k3, by rw [hy]; exact k4, by rw [hy]; exact k5,
      by rw [hy]; exact k6, by rw [hy]; exact k7, by rw [hy]; exact k8, by rw [hy]; exact k9, by rw [hpo]; exact k10⟩
  have hesv : isRequestByte e = true ∧ e ≠ 0x5E := by rcases env.esv with rfl | rfl <;> decide
  cases h with
  | receive l₁ l₂ p s hf hs hrun hidle =>
    have hp' : p ∈ n.flying := by rw [hf]; simp
    obtain ⟨m, hm⟩ : ∃ m, recvLoop [.datagram p.bytes p.src] = ([m], .running) := by
      rcases inv.fly p hp' with ⟨_, m, h1, _⟩ | ⟨_, m, h1, _⟩ <;> exact ⟨m, h1⟩
    refine same _ ?_ ?_ <;> unfold Net.received <;> rw [hm]
  | drop l₁ l₂ p hf hd => exact same _ rfl rfl
  | done l₁ l₂ q hb ht => exact same _ rfl rfl
  | infected l₁ l₂ q o os hb ht hpo =>
    exfalso
    rw [kept.sound] at hpo
    rcases inv.busy q (by rw [hb]; simp) with ⟨hqj, _⟩ | ⟨hqi, _⟩
    · rw [hqj, env.asked.sound] at hpo; cases hpo
    · rw [hqi, env.asker.sound] at hpo; cases hpo
  | skip l₁ l₂ q o os hb ht hpo hm =>
    exfalso
    rw [kept.sound] at hpo
    rcases inv.busy q (by rw [hb]; simp) with ⟨hqj, _⟩ | ⟨hqi, _⟩
    · rw [hqj, env.asked.sound] at hpo; cases hpo
    · rw [hqi, env.asker.sound] at hpo; cases hpo
  | die l₁ l₂ q o os ev hb ht hpo hu hfree hok hinv =>
    exfalso
    have hq : q ∈ n.busy := by rw [hb]; simp
    rcases inv.busy q hq with ⟨hqj, m1, m2, m3, m4, m5⟩ | ⟨hqi, m1, m2, m3, m4, m5⟩
    · refine ask_invoke_ok hdb (by rw [m1]; exact hesv.2) m5 ?_ ?_ hu o hinv
      · intro _; rw [hqj]; exact kept.valid
      · intro h; rw [m1, hesv.1] at h; exact absurd h (by decide)
    · refine ask_invoke_ok hdb m3 m5 ?_ ?_ hu o hinv
      · intro h; rw [m2] at h; exact absurd h (by decide)
      · intro _; exact answer_not_notification m1
  | call l₁ l₂ q o os ev h' _ ps hb ht hpo hu hfree hok hinv hps =>
    have hq : q ∈ n.busy := by rw [hb]; simp
    have hself : (n.setHost q.host h').hosts q.host = h' := by simp [Net.setHost]
    have hothers : ∀ c, c ≠ q.host → (n.setHost q.host h').hosts c = n.hosts c := by
      intro c hc; simp [Net.setHost, hc]
    -- an observer that leaves the node alone
    have still : h'.node = (n.hosts q.host).node → KeptBy b j d n₁ { n.setHost q.host h' with
        flying := n.flying ++ ps, busy := l₁ ++ { q with todo := os } :: l₂ } := by
      intro hn
      have hall : ∀ c, ((n.setHost q.host h').hosts c).node = (n.hosts c).node := by
        intro c
        by_cases hc : c = q.host
        · rw [hc, hself, hn]
        · rw [hothers c hc]
      obtain ⟨k1, k2, k3, k4, k5, k6, k7, k8, k9, k10⟩ := kept
      constructor <;> simp only [hall] <;> assumption
    cases o with
    | controller =>
      simp only [Host.invoke] at hinv
      obtain ⟨r, _, hinv⟩ := Res.bind_eq_ok.mp hinv
      simp only [Res.pure_eq, Res.ok.injEq, Prod.mk.injEq] at hinv
      exact still (by rw [← hinv.1])
    | device =>
      simp only [Host.invoke, Res.ok.injEq, Prod.mk.injEq] at hinv
      exact still (by rw [← hinv.1])
    | user u =>
      simp only [Host.invoke, Res.ok.injEq, Prod.mk.injEq] at hinv
      exact still (by rw [← hinv.1])
    | node =>
      simp only [Host.invoke, Node.observeTry, hfree.1, Bool.not_true, Bool.false_eq_true, if_false] at hinv
      obtain ⟨r, hr, hinv⟩ := Res.bind_eq_ok.mp hinv
      simp only [Res.pure_eq, Res.ok.injEq, Prod.mk.injEq] at hinv
      obtain ⟨rfl, rfl⟩ := hinv
      have hobs : (n.hosts q.host).node.observe b ev.ω ev.ok q.msg = .ok (r.1, r.2) := hr
      obtain ⟨f1, f2, _, f4⟩ := observe_frame hobs
      rcases inv.busy q hq with ⟨hqj, m1, m2, m3, m4, m5⟩ | ⟨hqi, m1, m2, m3, m4, m5⟩
      · have hk : ∀ o ∈ (n.hosts q.host).node.objects, KeysOk o := by rw [hqj]; exact kept.keys
        have htid := observe_keepsTid hk (by rw [m2]; exact env.tid) hobs
        obtain ⟨hal, hkeys⟩ := observe_alike hk hobs
        have hval := observe_valid (by rw [hqj]; exact kept.valid) hobs
        refine ⟨?_, ?_, ?_, ?_, ?_, ?_, ?_, ?_, ?_, kept.sound⟩
        · intro c
          show ((n.setHost q.host _).hosts c).node.transport = _
          by_cases hc : c = q.host
          · subst hc; rw [hself]; exact f2.trans (kept.transport _)
          · rw [hothers c hc]; exact kept.transport c
        · intro c
          show ((n.setHost q.host _).hosts c).node.handlers = _
          by_cases hc : c = q.host
          · subst hc; rw [hself]; exact f1.trans (kept.handlers _)
          · rw [hothers c hc]; exact kept.handlers c
        · intro c
          show ((n.setHost q.host _).hosts c).node.lastTid = _
          by_cases hc : c = q.host
          · subst hc; rw [hself]; exact htid.trans (kept.tids _)
          · rw [hothers c hc]; exact kept.tids c
        · intro c
          show ((n.setHost q.host _).hosts c).node.nextChan = _
          by_cases hc : c = q.host
          · subst hc; rw [hself]; exact f4.trans (kept.chans _)
          · rw [hothers c hc]; exact kept.chans c
        · intro c hcj
          show ((n.setHost q.host _).hosts c).node.objects = _
          rw [hothers c (by rw [hqj]; exact hcj)]; exact kept.objects c hcj
        · show AlikeAll _ ((n.setHost q.host _).hosts j).node.objects
          rw [← hqj, hself]
          exact AlikeAll.trans (by have := kept.alike; rw [← hqj] at this; exact this) hal
        · show ∀ o ∈ ((n.setHost q.host _).hosts j).node.objects, KeysOk o
          rw [← hqj, hself]; exact hkeys
        · show ∀ o ∈ ((n.setHost q.host _).hosts j).node.objects, ValidObject b o
          rw [← hqj, hself]; exact hval
        · intro o v ho hi
          show Implements ((n.setHost q.host _).hosts j).node o v
          rw [← hqj, hself]
          have h1 := kept.others o v ho hi
          rw [← hqj] at h1
          have hh : (n.hosts q.host).node.handlers = (n₁.hosts j).node.handlers := by rw [kept.handlers, hqj]
          have h2 := judged_step h1 (by rw [hh]; exact hp) (by rw [hh]; exact hst) hobs
          have h3 : v.judgedStep (n.hosts q.host).node.handlers o q.msg = v := by
            unfold Values.judgedStep
            rw [if_neg]
            intro hx
            exact ho (by rw [← hx.2.1, m3])
          rw [h3] at h2
          exact h2
      · -- an answer
        have hsame : r.1 = { (n.hosts q.host).node with post := r.1.post } := by
          rcases (Node.observe_nonrequest m2 hobs).1 with h | h <;> rw [h]
        have hall : ∀ c, ∃ y, ((n.setHost q.host { n.hosts q.host with node := r.1 }).hosts c).node =
            { (n.hosts c).node with post := y } := by
          intro c
          by_cases hc : c = q.host
          · subst hc; rw [hself]; exact ⟨_, hsame⟩
          · rw [hothers c hc]; exact ⟨(n.hosts c).node.post, rfl⟩
        have imp : ∀ o v c, Implements (n.hosts c).node o v →
            Implements ((n.setHost q.host { n.hosts q.host with node := r.1 }).hosts c).node o v := by
          intro o v c hi
          obtain ⟨y, hy⟩ := hall c
          rw [hy]; exact ⟨hi.keys, hi.object⟩
        refine ⟨?_, ?_, ?_, ?_, ?_, ?_, ?_, ?_, fun o v ho hi => imp o v j (kept.others o v ho hi),
          kept.sound⟩
        · intro c; obtain ⟨y, hy⟩ := hall c; simp only [hy]; exact kept.transport c
        · intro c; obtain ⟨y, hy⟩ := hall c; simp only [hy]; exact kept.handlers c
        · intro c; obtain ⟨y, hy⟩ := hall c; simp only [hy]; exact kept.tids c
        · intro c; obtain ⟨y, hy⟩ := hall c; simp only [hy]; exact kept.chans c
        · intro c hc; obtain ⟨y, hy⟩ := hall c; simp only [hy]; exact kept.objects c hc
        · obtain ⟨y, hy⟩ := hall j; simp only [hy]; exact kept.alike
        · obtain ⟨y, hy⟩ := hall j; simp only [hy]; exact kept.keys
        · obtain ⟨y, hy⟩ := hall j; simp only [hy]; exact kept.valid

theorem kept_run {b : Build} {ω₀ : HashOrder} {db : Database} (hdb : standardDb b ω₀ = .ok db)
    {own : IpAddr → Option Nat} {i j : Nat} {e : UInt8} {t : UInt16} {d : UInt32}
    {n₁ n : Net S} {tr : List (Nat × Out)} (env : CallEnds b i j e t n₁)
    (h0 : ∀ tr n, Prompt b db own n₁ tr n → (∀ k g u, (k, Out.handed g u) ∈ tr → Fits u) → Paths own i j e t d n) (hp : ∀ h ∈ (n₁.hosts j).node.handlers, Passive h)
    (hst : ∀ h ∈ (n₁.hosts j).node.handlers, Stateless h) (h : Prompt b db own n₁ tr n)
    (hfit : ∀ k g u, (k, Out.handed g u) ∈ tr → Fits u) : KeptBy b j d n₁ n := by
  induction h with
  | refl =>
    exact ⟨fun _ => rfl, fun _ => rfl, fun _ => rfl, fun _ => rfl, fun _ _ => rfl, .refl _,
      fun o ho => (env.objects o ho).1, fun o ho => (env.objects o ho).2, fun _ _ _ h => h, rfl⟩
  | step h h' hr ih =>
    have hfit' := fun k g u hx => hfit k g u (List.mem_append_left _ hx)
    exact kept_step hdb env (h0 _ _ h hfit') hp hst (ih hfit') h'

/-! ## The invariant of a session -/

theorem implements_congr {n n' : Node S} (h : n'.objects = n.objects) {o : Object} {v : Values} (hi : Implements n o v) :
    Implements n' o v := ⟨by rw [h]; exact hi.keys, by rw [h]; exact hi.object⟩

theorem approved_congr {hs : List (Handler S)} (hst : ∀ h ∈ hs, Stateless h) {o d : Object} (ha : Alike o d) (m : Message) :
    Approved hs d m ↔ Approved hs o m := by
  unfold Approved
  refine or_congr Iff.rfl (exists_congr fun h => and_congr_right fun hh => ?_)
  refine forall_congr' fun p => forall_congr' fun _ => forall_congr' fun s => ?_
  rw [hst h hh s s o d m.esv p ha.1 ha.2]

theorem callsOf_snoc (k : Nat) (l : List Happening) (x : Happening) :
    callsOf k (l ++ [x]) = callsOf k l + callsOf k [x] := by
  unfold callsOf; rw [List.filterMap_append, List.length_append]

theorem callsOf_append (k : Nat) (l l' : List Happening) : callsOf k (l ++ l') = callsOf k l + callsOf k l' := by
  unfold callsOf; rw [List.filterMap_append, List.length_append]

theorem accesses_snoc (k : Nat) (l : List Happening) (x : Happening) :
    accesses k (l ++ [x]) = accesses k l ++ accesses k [x] := by
  unfold accesses; rw [List.filterMap_append]

/-- What holds after a session. -/
structure SessInv (b : Build) (own : IpAddr → Option Nat) (n₀ : Net S) (l : List Happening) (n : Net S) : Prop where
  rest : AtRest own n
  transport : ∀ k, (n.hosts k).node.transport = (n₀.hosts k).node.transport
  sound : n.poisoned = n₀.poisoned
  handlers : ∀ k, (n.hosts k).node.handlers = (n₀.hosts k).node.handlers
  alike : ∀ k, AlikeAll (n₀.hosts k).node.objects (n.hosts k).node.objects
  objects : ∀ k, ∀ o ∈ (n.hosts k).node.objects, KeysOk o ∧ ValidObject b o
  tids : ∀ k, (n.hosts k).node.lastTid.toNat = (n₀.hosts k).node.lastTid.toNat + callsOf k l
  chans : ∀ k, (n.hosts k).node.nextChan = (n₀.hosts k).node.nextChan + callsOf k l
  impl : ∀ k o, findObject (n₀.hosts k).node.objects o.code = some o →
    Implements (n.hosts k).node o (valuesAfter (n₀.hosts k).node.handlers o (accesses k l))
  answers : ∀ pre i j m ds suf, l = pre ++ .called i j m ds :: suf →
    ∀ o, findObject (n₀.hosts j).node.objects m.deoj = some o →
    ∃ a, ds = [((n₀.hosts i).node.nextChan + callsOf i pre, a)] ∧
      Answer (n₀.hosts j).node.handlers o (valuesAfter (n₀.hosts j).node.handlers o (accesses j pre)) m a

theorem session_set {b : Build} {db : Database} {own : IpAddr → Option Nat} {n₀ n n' : Net S} {l : List Happening}
    {outs : List Out} {k : Nat} {oc : UInt32} {c : UInt8} {d : List UInt8} (inv : SessInv b own n₀ l n)
    (h : Net.Api b db n k (.node (.setProperty oc c d)) outs n') : SessInv b own n₀ (l ++ [.set k oc c d]) n' := by
  cases h with
  | mk h' _ ps ha hs hps =>
    simp only [Host.step, Node.step, Res.bind_ok, Res.pure_eq, Res.ok.injEq, Prod.mk.injEq] at hs
    obtain ⟨rfl, rfl⟩ := hs
    have hps0 : ps = [] := by
      cases ps with
      | nil => rfl
      | cons p ps =>
        obtain ⟨t, ht, _⟩ := hps p (by simp)
        cases ht
    subst hps0
    generalize hy : (n.hosts k).node.setProperty oc c d = y
    have hfr : y.2 = { (n.hosts k).node with objects := y.2.objects } := by rw [← hy]; exact setProperty_frame _ _ _ _
    generalize hx : { n.setHost k { n.hosts k with node := y.2 } with flying := n.flying ++ [] } = n'
    have hself : (n'.hosts k).node = y.2 := by rw [← hx]; simp [Net.setHost]
    have hoth : ∀ q, q ≠ k → n'.hosts q = n.hosts q := by intro q hq; rw [← hx]; simp [Net.setHost, hq]
    have field : ∀ {α : Type} (f : Node S → α), (∀ (m : Node S) os, f { m with objects := os } = f m) →
        ∀ q, f (n'.hosts q).node = f (n.hosts q).node := by
      intro α f hf q
      by_cases hq : q = k
      · rw [hq, hself, hfr, hf]
      · rw [hoth q hq]
    have htr := field (fun m => m.transport) (fun _ _ => rfl)
    have hc0 : ∀ q, callsOf q [Happening.set k oc c d] = 0 := fun _ => rfl
    refine ⟨⟨?_, ?_, ?_⟩, ?_, by rw [← hx]; exact inv.sound, ?_, ?_, ?_, ?_, ?_, ?_, ?_⟩
    · rw [← hx]; simp [inv.rest.flying]
    · rw [← hx]; exact inv.rest.busy
    · intro q s hs
      refine inv.rest.own q s ?_
      unfold Host.threads at hs ⊢
      have := htr q
      rw [this] at hs; exact hs
    · intro q; exact (htr q).trans (inv.transport q)
    · intro q; exact (field (fun m => m.handlers) (fun _ _ => rfl) q).trans (inv.handlers q)
    · intro q
      by_cases hq : q = k
      · subst hq
        rw [hself, ← hy]
        exact (inv.alike q).trans (setProperty_alike _ _ _ _)
      · rw [hoth q hq]; exact inv.alike q
    · intro q
      by_cases hq : q = k
      · subst hq
        rw [hself, ← hy]
        intro o ho
        unfold Node.setProperty at ho
        split at ho
        · exact inv.objects q o ho
        · split at ho
          · exact inv.objects q o ho
          · exact ⟨updateObject_keys (fun o ho => Object.setPropertyData_keysOk ho _ _) _ (fun o ho => (inv.objects q o ho).1) o ho,
              updateObject_valid (fun o ho => setPropertyData_valid ho _ _) _ (fun o ho => (inv.objects q o ho).2) o ho⟩
      · rw [hoth q hq]; exact inv.objects q
    · intro q
      rw [callsOf_snoc, hc0, field (fun m => m.lastTid) (fun _ _ => rfl) q]
      exact inv.tids q
    · intro q
      rw [callsOf_snoc, hc0, field (fun m => m.nextChan) (fun _ _ => rfl) q]
      exact inv.chans q
    · intro q o ho
      rw [accesses_snoc]
      by_cases hq : q = k
      · subst hq
        rw [hself, ← hy]
        have : accesses q [Happening.set q oc c d] = [.set oc c d] := by simp [accesses]
        rw [this, valuesAfter_snoc]
        exact setProperty_access _ (inv.impl q o ho) oc c d
      · have : accesses q [Happening.set k oc c d] = [] := by simp [accesses, Ne.symm hq]
        rw [this, List.append_nil, hoth q hq]
        exact inv.impl q o ho
    · intro pre i j m ds suf hl
      rcases List.eq_nil_or_concat suf with rfl | ⟨suf', z, rfl⟩
      · have := congrArg List.getLast? hl
        simp at this
      · rw [List.concat_eq_append] at hl
        rw [← List.cons_append, ← List.append_assoc] at hl
        obtain ⟨hl, _⟩ := List.append_inj' hl rfl
        exact inv.answers pre i j m ds suf' hl

theorem session_call {b : Build} {ω₀ : HashOrder} {db : Database} (hdb : standardDb b ω₀ = .ok db)
    {own : IpAddr → Option Nat} {n₀ n n₁ n₂ : Net S} {l : List Happening} {i j : Nat} {m : Message} {outs : List Out}
    {tr : List (Nat × Out)} (hready : Ready b own n₀) (inv : SessInv b own n₀ l n)
    (ha : AsksFor b db own n i j m outs n₁) (hrun : Prompt b db own n₁ tr n₂) (hend : n₂.flying = [] ∧ n₂.busy = [])
    (hfit : ∀ k g u, (k, Out.handed g u) ∈ outs.map (fun o => (i, o)) ++ tr → Fits u) :
    SessInv b own n₀ (l ++ [.called i j m (deliveries (outsOf i tr))]) n₂ := by
  have hh := inv.handlers
  have hp0 : ∀ h ∈ (n₀.hosts j).node.handlers, Passive h := fun h x => (hready.handlers j h x).1
  have hst0 : ∀ h ∈ (n₀.hosts j).node.handlers, Stateless h := fun h x => (hready.handlers j h x).2
  obtain ⟨op, to, s, _, _, _, _, _, hni, hoth, _⟩ := asks_start ha
  obtain ⟨env, inv0⟩ := asks_paths ha (fun g u h => hfit i g u (List.mem_append_left _ (mem_map_host.mpr ⟨rfl, h⟩)))
  have field : ∀ {α : Type} (f : Node S → α), (∀ (m : Node S) t p c, f { m with lastTid := t, post := p, nextChan := c } = f m) →
      ∀ q, f (n₁.hosts q).node = f (n.hosts q).node := by
    intro α f hf q
    by_cases hq : q = i
    · rw [hq, hni, hf]
    · rw [hoth q hq]
  have hobj1 := field (fun m => m.objects) (fun _ _ _ _ => rfl)
  have hh1 := field (fun m => m.handlers) (fun _ _ _ _ => rfl)
  have kept := kept_run hdb env inv0 (by rw [hh1, hh]; exact hp0) (by rw [hh1, hh]; exact hst0) hrun
    (fun k g u h => hfit k g u (List.mem_append_right _ h))
  have htr : ∀ q, (n₂.hosts q).node.transport = (n₀.hosts q).node.transport := by
    intro q
    exact ((kept.transport q).trans (field (fun m => m.transport) (fun _ _ _ _ => rfl) q)).trans (inv.transport q)
  have hcq : ∀ q, callsOf q [Happening.called i j m (deliveries (outsOf i tr))] = if i = q then 1 else 0 := by
    intro q; unfold callsOf; by_cases h : i = q <;> simp [h]
  -- the values after the call
  have key : ∀ o, findObject (n₀.hosts j).node.objects m.deoj = some o →
      ∃ a, deliveries (outsOf i tr) = [((n₀.hosts i).node.nextChan + callsOf i l, a)] ∧
      Answer (n₀.hosts j).node.handlers o (valuesAfter (n₀.hosts j).node.handlers o (accesses j l)) m a ∧
      Implements (n₂.hosts j).node o
        ((valuesAfter (n₀.hosts j).node.handlers o (accesses j l)).judgedStep (n₀.hosts j).node.handlers o m) := by
    intro o ho
    have hoc : o.code = m.deoj := by
      obtain ⟨_, _, _, _, h3⟩ := findObject_split ho
      exact h3
    have himp := inv.impl j o (by rw [hoc]; exact ho)
    generalize hv : valuesAfter (n₀.hosts j).node.handlers o (accesses j l) = v at himp
    obtain ⟨_, d, hd, hattr, hval⟩ := himp
    have hdc : d.code = o.code := by
      obtain ⟨_, _, _, _, h3⟩ := findObject_split hd
      exact h3
    have hal : Alike o d := ⟨hdc, hattr⟩
    obtain ⟨a, g1, g2, g3, g4, g5, g6⟩ := C84_values b db own n n₁ n₂ i j m outs ha tr hrun hfit hend
      (by rw [hh]; exact hp0) (by rw [hh]; exact hst0) d (by rw [← hoc]; exact hd)
    rw [hh, allowed_congr hattr m, approved_congr hst0 hal m] at g2 g3
    rw [inv.chans] at g1
    refine ⟨a, g1, ⟨g2, g3, ?_, g5⟩, ?_, ?_⟩
    · intro h72
      obtain ⟨k1, k2, k3⟩ := g4 h72
      exact ⟨k1, k2, fun q hq hm => by rw [← hval _ hm]; exact k3 q hq hm⟩
    · exact kept.keys
    · obtain ⟨x, hx, hxa⟩ := kept.alike.find (c := o.code) (o := d) (by rw [hobj1]; exact hd)
      refine ⟨x, hx, fun c => (hxa.2 c).trans (hattr c), ?_⟩
      intro c hc
      have hg := g6 c hc
      rw [← hoc] at hg
      have hpx : (n₂.hosts j).node.property o.code c = valuesOf x c := by
        simp only [Node.property, hx, Object.findProperty, valuesOf]
        cases x.properties c <;> rfl
      rw [← hpx, hg]
      have hmreq : isRequestByte m.esvByte = true := by rcases ha.service with h | h <;> rw [h] <;> decide
      have hwr : ∀ ws, (valuesOf d).write ws c = v.write ws c := by
        intro ws; unfold Values.write; rw [hval c hc]
      by_cases hx : Allowed o m ∧ Approved (n₀.hosts j).node.handlers o m
      · have hstep : v.judgedStep (n₀.hosts j).node.handlers o m = v.write (writesOf m) := by
          unfold Values.judgedStep; rw [if_pos ⟨hmreq, hoc.symm, hx⟩]
        rw [hstep]
        have hsu := g2 hx
        rcases ha.service with h | h
        · rw [h] at hsu
          have h71 : a.esvByte = 0x71 := by simpa [successByte] using hsu.symm
          rw [if_pos h71]
          have : writesOf m = m.properties := by unfold writesOf; rw [h]; simp
          rw [this, hwr]
        · rw [h] at hsu
          have h72 : a.esvByte = 0x72 := by simpa [successByte] using hsu.symm
          rw [if_neg (by rw [h72]; decide)]
          have : writesOf m = [] := by unfold writesOf; rw [h]; simp
          rw [this, hval c hc]; rfl
      · have hstep : v.judgedStep (n₀.hosts j).node.handlers o m = v := by
          unfold Values.judgedStep; rw [if_neg (fun h => hx h.2.2)]
        rw [hstep]
        have hne := g3 hx
        rw [if_neg (by rw [hne]; rcases ha.service with h | h <;> rw [h] <;> decide), hval c hc]
  have hpo : n₁.poisoned = n.poisoned := by
    obtain ⟨_, _, _, _, hc⟩ := ha.call
    cases hc
    rfl
  refine ⟨⟨hend.1, hend.2, ?_⟩, htr, (kept.sound.trans hpo).trans inv.sound, ?_, ?_, ?_, ?_, ?_, ?_, ?_⟩
  · intro q s hs
    refine hready.rest.own q s ?_
    unfold Host.threads at hs ⊢
    rw [htr q] at hs; exact hs
  · intro q
    exact ((kept.handlers q).trans (field (fun m => m.handlers) (fun _ _ _ _ => rfl) q)).trans (hh q)
  · intro q
    by_cases hq : q = j
    · subst hq
      have := kept.alike
      rw [hobj1] at this
      exact (inv.alike q).trans this
    · rw [kept.objects q hq, hobj1]; exact inv.alike q
  · intro q
    by_cases hq : q = j
    · subst hq; exact fun o ho => ⟨kept.keys o ho, kept.valid o ho⟩
    · rw [kept.objects q hq, hobj1]; exact inv.objects q
  · intro q
    rw [callsOf_snoc, hcq, kept.tids]
    by_cases hq : i = q
    · subst hq
      rw [hni, if_pos rfl, ← Nat.add_assoc, ← inv.tids, UInt16.toNat_add]
      have h1 := UInt16.toNat_lt (n.hosts i).node.lastTid
      have h2 : (n.hosts i).node.lastTid.toNat ≠ 65535 := fun h => ha.noWrap (UInt16.toNat.inj h)
      show (_ + 1) % 65536 = _
      omega
    · rw [hoth q (Ne.symm hq), if_neg hq]; exact inv.tids q
  · intro q
    rw [callsOf_snoc, hcq, kept.chans]
    by_cases hq : i = q
    · subst hq
      rw [hni, if_pos rfl, ← Nat.add_assoc, ← inv.chans]
    · rw [hoth q (Ne.symm hq), if_neg hq]; exact inv.chans q
  · intro q o ho
    rw [accesses_snoc]
    by_cases hq : q = j
    · subst hq
      have : accesses q [Happening.called i q m (deliveries (outsOf i tr))] = [.request m] := by simp [accesses]
      rw [this, valuesAfter_snoc]
      show Implements _ _ (Values.judgedStep _ _ _ _)
      by_cases hc : m.deoj = o.code
      · obtain ⟨_, _, _, h3⟩ := key o (by rw [hc]; exact ho)
        exact h3
      · have : ∀ v : Values, v.judgedStep (n₀.hosts q).node.handlers o m = v := by
          intro v; unfold Values.judgedStep; rw [if_neg (fun h => hc h.2.1)]
        rw [this]
        exact kept.others o _ (fun h => hc h.symm) (implements_congr (hobj1 q) (inv.impl q o ho))
    · have : accesses q [Happening.called i j m (deliveries (outsOf i tr))] = [] := by simp [accesses, Ne.symm hq]
      rw [this, List.append_nil]
      exact implements_congr ((kept.objects q hq).trans (hobj1 q)) (inv.impl q o ho)
  · intro pre i' j' m' ds suf hl o ho
    rcases List.eq_nil_or_concat suf with rfl | ⟨suf', z, rfl⟩
    · obtain ⟨rfl, hx⟩ := List.append_inj' hl rfl
      simp only [List.cons.injEq, Happening.called.injEq, and_true] at hx
      obtain ⟨rfl, rfl, rfl, rfl⟩ := hx
      obtain ⟨a, h1, h2, _⟩ := key o ho
      exact ⟨a, h1, h2⟩
    · rw [List.concat_eq_append] at hl
      rw [← List.cons_append, ← List.append_assoc] at hl
      obtain ⟨hl, _⟩ := List.append_inj' hl rfl
      exact inv.answers pre i' j' m' ds suf' hl o ho

theorem session_inv {b : Build} {ω₀ : HashOrder} {db : Database} (hdb : standardDb b ω₀ = .ok db)
    {own : IpAddr → Option Nat} {n₀ n : Net S} {l : List Happening} (hready : Ready b own n₀)
    (h : Session b db own n₀ l n)
    (hcalls : ∀ i j m ds, Happening.called i j m ds ∈ l →
      Running n₀ i ∧ Running n₀ j ∧ ∃ o ∈ (n₀.hosts j).node.objects, o.code = m.deoj)
    (htids : ∀ i, (n₀.hosts i).node.lastTid.toNat + callsOf i l < 65536) : SessInv b own n₀ l n := by
  induction h with
  | start =>
    refine ⟨hready.rest, fun _ => rfl, rfl, fun _ => rfl, fun _ => .refl _, hready.objects, fun _ => rfl, fun _ => rfl, ?_, ?_⟩
    · intro k o ho
      exact ⟨fun x hx => (hready.objects k x hx).1, o, ho, fun _ => rfl, fun _ _ => rfl⟩
    · intro pre i j m ds suf hl
      exact absurd hl (by simp)
  | call hx format service noTid post address call delivered routed run rest fits ih =>
    rename_i l n n₁ n₂ i j m op to outs tr
    have inv := ih (fun i j m ds hm => hcalls i j m ds (List.mem_append_left _ hm)) (fun i => by
      have := htids i; rw [callsOf_snoc] at this; omega)
    obtain ⟨r1, r2, o, ho, hoc⟩ := hcalls i j m _ (List.mem_append_right _ (List.mem_singleton.mpr rfl))
    refine session_call hdb hready inv ⟨inv.rest, running_congr (inv.transport i) inv.sound r1,
      running_congr (inv.transport j) inv.sound r2,
      inv.objects j, ?_, format, service, noTid, ?_, ⟨op, to, post, address, call⟩, delivered, routed⟩ run rest fits
    · obtain ⟨x, hx⟩ : ∃ x, findObject (n₀.hosts j).node.objects m.deoj = some x := by
        cases hf : findObject (n₀.hosts j).node.objects m.deoj with
        | none => exact absurd hoc (findObject_none_iff.mp hf o ho)
        | some x => exact ⟨x, rfl⟩
      obtain ⟨y, hy, _⟩ := (inv.alike j).find hx
      obtain ⟨p1, p2, h1, _, h3⟩ := findObject_split hy
      exact ⟨y, by rw [h1]; simp, h3⟩
    · intro h0
      have h1 := inv.tids i
      have h2 := htids i
      rw [callsOf_snoc] at h2
      have h3 : callsOf i [Happening.called i j m (deliveries (outsOf i tr))] = 1 := by simp [callsOf]
      rw [h3] at h2
      rw [h0] at h1
      have : (0xFFFF : UInt16).toNat = 65535 := rfl
      omega
  | set k oc c d hx call ih =>
    exact session_set (ih (fun i j m ds hm => hcalls i j m ds (List.mem_append_left _ hm)) (fun i => by
      have := htids i; rw [callsOf_snoc] at this; omega)) call

/-! ## C85 -/

/-- C85. In a session, in which any hosts post any number of requests to any hosts (also to themselves), one after the other, and
applications set values in between, each call receives exactly one answer, on its own channel; the answer says what the object
asked, seen as a map of values to which everything before was applied in order, says; and the objects hold the values of that
map in the end. -/
theorem C85_session (b : Build) (ω₀ : HashOrder) (db : Database) (hdb : standardDb b ω₀ = .ok db) (own : IpAddr → Option Nat)
    (n₀ n : Net S) (l : List Happening) (hready : Ready b own n₀) (h : Session b db own n₀ l n)
    (hcalls : ∀ i j m ds, Happening.called i j m ds ∈ l →
      Running n₀ i ∧ Running n₀ j ∧ ∃ o ∈ (n₀.hosts j).node.objects, o.code = m.deoj)
    (htids : ∀ i, (n₀.hosts i).node.lastTid.toNat + callsOf i l < 65536) :
    (∀ pre i j m ds suf, l = pre ++ .called i j m ds :: suf →
      ∃ o a, findObject (n₀.hosts j).node.objects m.deoj = some o ∧
        ds = [((n₀.hosts i).node.nextChan + callsOf i pre, a)] ∧
        Answer (n₀.hosts j).node.handlers o (valuesAfter (n₀.hosts j).node.handlers o (accesses j pre)) m a) ∧
    ∀ k o, findObject (n₀.hosts k).node.objects o.code = some o → ∀ c, isMapCode c = false →
      (n.hosts k).node.property o.code c = valuesAfter (n₀.hosts k).node.handlers o (accesses k l) c := by
  have inv := session_inv hdb hready h hcalls htids
  constructor
  · intro pre i j m ds suf hl
    obtain ⟨_, _, o, ho, hoc⟩ := hcalls i j m ds (by rw [hl]; simp)
    cases hf : findObject (n₀.hosts j).node.objects m.deoj with
    | none => exact absurd hoc (findObject_none_iff.mp hf o ho)
    | some x =>
      obtain ⟨a, h1, h2⟩ := inv.answers pre i j m ds suf hl x hf
      exact ⟨x, a, rfl, h1, h2⟩
  · intro k o ho c hc
    obtain ⟨_, d, hd, _, hval⟩ := inv.impl k o ho
    rw [← hval c hc]
    simp only [Node.property, hd, Object.findProperty, valuesOf]
    cases d.properties c <;> rfl


theorem valuesAfter_split (hs : List (Handler S)) (o : Object) (l l' : List Access) :
    valuesAfter hs o (l ++ l') = l'.foldl (Values.access hs o) (valuesAfter hs o l) := by
  unfold valuesAfter; rw [List.foldl_append]

theorem accesses_append (k : Nat) (l l' : List Happening) : accesses k (l ++ l') = accesses k l ++ accesses k l' := by
  unfold accesses; rw [List.filterMap_append]

/-- What was written last is there. -/
theorem written_kept (hs : List (Handler S)) (o : Object) (pre mid : List Access) (w : Message) (c : UInt8) (d x : List UInt8)
    (hwr : w.esvByte = 0x61) (hoc : o.code = w.deoj) (hdone : Allowed o w ∧ Approved hs o w)
    (hw : ∃ p ∈ w.properties, p.code = c) (hwd : ∀ p ∈ w.properties, p.code = c → p.data = d)
    (hmid : ∀ a ∈ mid, match a with
      | .request m => m.deoj = w.deoj → ∀ p ∈ writesOf m, p.code ≠ c
      | .set oc c' _ => ¬ (oc = w.deoj ∧ c' = c))
    (hv : valuesAfter hs o (pre ++ [.request w] ++ mid) c = some x) : x = d := by
  have hafter : valuesAfter hs o (pre ++ [.request w]) c = (valuesAfter hs o pre c).map (fun _ => d) := by
    rw [valuesAfter_snoc]
    have hmreq : isRequestByte w.esvByte = true := by rw [hwr]; decide
    have hws : writesOf w = w.properties := by unfold writesOf; rw [hwr]; simp
    simp only [Values.access, Values.judgedStep]
    rw [if_pos ⟨hmreq, hoc.symm, hdone⟩, hws]
    unfold Values.write
    obtain ⟨q, hq, hqc⟩ := hw
    obtain ⟨d', hd'⟩ := lastWrite_of_mem hq
    rw [hqc] at hd'
    have hdd : d' = d := hwd _ (lastWrite_mem hd') rfl
    rw [hd', hdd]
  have hkeep : ∀ a ∈ mid, ∀ d, Writes o c d a := by
    intro a ha d
    have := hmid a ha
    cases a with
    | request m => exact fun h1 x hx hxc => absurd hxc (this (h1.trans hoc) x hx)
    | set oc c' d' => exact fun h1 h2 => absurd ⟨h1.trans hoc, h2⟩ this
  rw [valuesAfter_split] at hv
  cases hx : valuesAfter hs o pre c with
  | some d0 =>
    rw [hx] at hafter
    rw [keeps_after (fun a ha => hkeep a ha d) hafter] at hv
    exact (Option.some.inj hv).symm
  | none =>
    -- the property would not exist
    exfalso
    rw [hx] at hafter
    have none_access : ∀ (a : Access) (v : Values), v c = none → v.access hs o a c = none := by
      intro a v hv
      cases a with
      | request m =>
        simp only [Values.access, Values.judgedStep]
        split
        · unfold Values.write; split <;> simp [hv]
        · exact hv
      | set oc c' d' =>
        simp only [Values.access]
        split
        · unfold Values.write; split <;> simp [hv]
        · exact hv
    have : ∀ (l : List Access) (v : Values), v c = none → l.foldl (Values.access hs o) v c = none := by
      intro l
      induction l with
      | nil => exact fun _ h => h
      | cons a l ih => exact fun v h => ih _ (none_access a v h)
    rw [this _ _ hafter] at hv
    cases hv

/-- C85, what a caller sees: what one host has written, with confirmation, every host reads until it is written again. -/
theorem C85_read_back (b : Build) (ω₀ : HashOrder) (db : Database) (hdb : standardDb b ω₀ = .ok db)
    (own : IpAddr → Option Nat) (n₀ n : Net S) (l : List Happening) (hready : Ready b own n₀) (h : Session b db own n₀ l n)
    (hcalls : ∀ i j m ds, Happening.called i j m ds ∈ l →
      Running n₀ i ∧ Running n₀ j ∧ ∃ o ∈ (n₀.hosts j).node.objects, o.code = m.deoj)
    (htids : ∀ i, (n₀.hosts i).node.lastTid.toNat + callsOf i l < 65536)
    (pre mid suf : List Happening) (i i' j : Nat) (w r aw ar : Message) (ch ch' : Nat)
    (hl : l = pre ++ .called i j w [(ch, aw)] :: (mid ++ .called i' j r [(ch', ar)] :: suf))
    (c : UInt8) (d : List UInt8) (hc : isMapCode c = false)
    (hconf : aw.esvByte = 0x71) (hw : ∃ p ∈ w.properties, p.code = c) (hwd : ∀ p ∈ w.properties, p.code = c → p.data = d)
    (hmid : ∀ a ∈ accesses j mid, match a with
      | .request m => m.deoj = w.deoj → ∀ p ∈ writesOf m, p.code ≠ c
      | .set oc c' _ => ¬ (oc = w.deoj ∧ c' = c))
    (hr : r.deoj = w.deoj) (hshown : ar.esvByte = 0x72) :
    ∀ p ∈ ar.properties, p.code = c → p.data = d := by
  intro p hp hpc
  obtain ⟨hall, _⟩ := C85_session b ω₀ db hdb own n₀ n _ hready h hcalls htids
  obtain ⟨o, a, ho, he, hans⟩ := hall pre i j w _ _ hl
  simp only [List.cons.injEq, Prod.mk.injEq, and_true] at he
  obtain ⟨_, rfl⟩ := he
  obtain ⟨o', a', ho', he', hans'⟩ := hall (pre ++ .called i j w [(ch, aw)] :: mid) i' j r [(ch', ar)] suf (by rw [hl]; simp)
  simp only [List.cons.injEq, Prod.mk.injEq, and_true] at he'
  obtain ⟨_, rfl⟩ := he'
  rw [hr, ho] at ho'
  obtain rfl := Option.some.inj ho'
  have hoc : o.code = w.deoj := by
    obtain ⟨_, _, _, _, h3⟩ := findObject_split ho
    exact h3
  generalize (n₀.hosts j).node.handlers = hs at *
  obtain ⟨hwr, hack⟩ := hans.wrote hconf
  have hdone : Allowed o w ∧ Approved hs o w := by
    rcases Classical.em (Allowed o w ∧ Approved hs o w) with h | h
    · exact h
    · have := hans.refused h
      rw [hconf, hwr] at this
      exact absurd this (by decide)
  obtain ⟨_, hsh⟩ := hans'.read hshown
  have hv := hsh.2 p hp (by rw [hpc]; exact hc)
  rw [hpc] at hv
  have hacc : accesses j (pre ++ .called i j w [(ch, aw)] :: mid) = accesses j pre ++ [.request w] ++ accesses j mid := by
    rw [show pre ++ Happening.called i j w [(ch, aw)] :: mid = (pre ++ [.called i j w [(ch, aw)]]) ++ mid by simp,
      accesses_append, accesses_append]
    simp [accesses]
  rw [hacc] at hv
  exact written_kept hs o (accesses j pre) (accesses j mid) w c d p.data hwr hoc hdone hw hwd hmid hv

/-! ## A session -/

/-- One call of host 0 to host 1 in a network of two nodes. -/
theorem pair_call {db : Database} {n₀ : Net Nat} {l : List Happening} {A B A₁ A₂ B₁ : Node Nat} {m rq rs a : Message} {ch : Nat}
    {oa ob : List Out} {bs ba : List UInt8} (h : Session .dev db exOwn n₀ l (exPair A B))
    (hA : A.transport = ⟨[⟨.v4 0xC0A80001, [.node], .running⟩], []⟩)
    (hB : B.transport = ⟨[⟨.v4 0xC0A80002, [.node], .running⟩], []⟩)
    (format : m.isFormat1 = true) (service : m.esvByte = 0x61 ∨ m.esvByte = 0x62) (noTid : m.tid = 0)
    (ha : A.step .dev (.post ⟨.v4 0xC0A80002, 3610⟩ m allOk) = .ok (A₁, oa))
    (hoa : txs oa = [(⟨.v4 0xC0A80001, ⟨.v4 0xC0A80002, 3610⟩, bs⟩ : Tx)])
    (hr : recvLoop [.datagram bs ⟨.v4 0xC0A80001, 3610⟩] = ([rq], .running))
    (hb : B.observe .dev .ascending allOk rq = .ok (B₁, ob))
    (hob : txs ob = [(⟨.v4 0xC0A80002, ⟨.v4 0xC0A80001, 3610⟩, ba⟩ : Tx)])
    (hm : recvLoop [.datagram ba ⟨.v4 0xC0A80002, 3610⟩] = ([rs], .running))
    (hobs : A₁.observe .dev .ascending allOk rs = .ok (A₂, [.deliver ch a]))
    (hfit1 : oa.all fitsOut = true) (hfit2 : ob.all fitsOut = true) :
    Session .dev db exOwn n₀ (l ++ [.called 0 1 m [(ch, a)]]) (exPair A₂ B₁) := by
  have hA₁ : A₁.transport = A.transport := by
    simp only [Node.step, Node.postMessage, Res.ok.injEq, Prod.mk.injEq] at ha
    rw [← ha.1]; simp [Node.updateTid_transport]
  have hB₁ : B₁.transport = B.transport := (observe_frame hb).2.1
  have toa : ∀ t, Out.tx t ∈ oa → t = ⟨.v4 0xC0A80001, ⟨.v4 0xC0A80002, 3610⟩, bs⟩ := by
    intro t ht; have := mem_txs.mp ht; rw [hoa] at this; simpa using this
  have tob : ∀ t, Out.tx t ∈ ob → t = ⟨.v4 0xC0A80002, ⟨.v4 0xC0A80001, 3610⟩, ba⟩ := by
    intro t ht; have := mem_txs.mp ht; rw [hob] at this; simpa using this
  have moa : Out.tx ⟨.v4 0xC0A80001, ⟨.v4 0xC0A80002, 3610⟩, bs⟩ ∈ oa := by rw [mem_txs, hoa]; simp
  have mob : Out.tx ⟨.v4 0xC0A80002, ⟨.v4 0xC0A80001, 3610⟩, ba⟩ ∈ ob := by rw [mem_txs, hob]; simp
  have hl1 : Listening (exPair A B) 1 0 :=
    ⟨⟨.v4 0xC0A80002, [.node], .running⟩, by simp [exPair, Host.ofNode, Host.threads, hB], rfl⟩
  have api : Net.Api .dev db (exPair A B) 0 (.node (.post ⟨.v4 0xC0A80002, 3610⟩ m allOk)) oa _ :=
    .mk { (exPair A B).hosts 0 with node := A₁ } oa [⟨⟨.v4 0xC0A80001, 3610⟩, 1, 0, bs⟩] trivial
      (by simp [Host.step, exPair, Host.ofNode, ha])
      (by intro p hp
          simp only [List.mem_cons, List.not_mem_nil, or_false] at hp
          subst hp
          exact ⟨_, moa, rfl, rfl⟩)
  have run0 : Prompt .dev db exOwn _ [] _ := .refl ({ (exPair A B).setHost 0 { (exPair A B).hosts 0 with node := A₁ } with
      flying := (exPair A B).flying ++ [⟨⟨.v4 0xC0A80001, 3610⟩, 1, 0, bs⟩] } : Net Nat)
  have run1 := prompt_round run0 (p := ⟨⟨.v4 0xC0A80001, 3610⟩, 1, 0, bs⟩) (rest := [])
    (s := ⟨.v4 0xC0A80002, [.node], .running⟩) [⟨⟨.v4 0xC0A80002, 3610⟩, 0, 0, ba⟩] rfl rfl rfl
    (by simp [Net.setHost, exPair, Host.ofNode, Host.threads, hB]) rfl rfl hr
    (by simpa [Net.setHost, exPair, Host.ofNode] using hb)
    (by intro p hp
        simp only [List.mem_cons, List.not_mem_nil, or_false] at hp
        subst hp
        exact ⟨_, mob, rfl, rfl, by intro j hj; revert hj; simp [exOwn]⟩)
    (by intro t ht j hj
        rw [tob t ht] at hj
        have : j = 0 := by simpa [exOwn] using hj.symm
        subst this
        refine ⟨_, List.mem_cons_self, rfl, by rw [tob t ht], by rw [tob t ht], ⟨.v4 0xC0A80001, [.node], .running⟩, ?_, rfl⟩
        simp [Net.setHost, exPair, Host.ofNode, Host.threads, hA₁, hA])
  have run2 := prompt_round run1 (p := ⟨⟨.v4 0xC0A80002, 3610⟩, 0, 0, ba⟩) (rest := [])
    (s := ⟨.v4 0xC0A80001, [.node], .running⟩) [] rfl rfl rfl
    (by simp [Net.setHost, Host.threads, hA₁, hA]) rfl rfl hm
    (by simpa [Net.setHost] using hobs) (by simp) (by intro t ht; simp at ht)
  have res := Session.call (i := 0) (j := 1) h format service noTid
    (.node ⟨.v4 0xC0A80002, 3610⟩ m allOk (fun _ => rfl)) (by simp [exOwn]) api ?_ ?_ run2 ⟨rfl, rfl⟩ ?_
  · have hdel : deliveries (outsOf 0 ([] ++ ob.map (fun o => ((⟨⟨.v4 0xC0A80001, 3610⟩, 1, 0, bs⟩ : Packet).host, o)) ++
        [Out.deliver ch a].map (fun o => ((⟨⟨.v4 0xC0A80002, 3610⟩, 0, 0, ba⟩ : Packet).host, o)))) = [(ch, a)] := by
      have : (ob.map (fun o => ((1 : Nat), o))).filter (fun x => x.1 == 0) = [] := by
        rw [List.filter_eq_nil_iff]
        intro x hx
        obtain ⟨o, _, rfl⟩ := List.mem_map.mp hx
        simp
      simp [outsOf, deliveries, this]
    rw [hdel] at res
    have hnet : ∀ (x y : Net Nat), x = y → Session .dev db exOwn n₀ (l ++ [.called 0 1 m [(ch, a)]]) x →
        Session .dev db exOwn n₀ (l ++ [.called 0 1 m [(ch, a)]]) y := fun _ _ e h => e ▸ h
    refine hnet _ _ ?_ res
    unfold exPair Net.setHost
    simp only [List.append_nil, Net.mk.injEq, and_true]
    funext k
    by_cases h0 : k = 0
    · subst h0; simp [Host.ofNode]
    · by_cases h1 : k = 1
      · subst h1; simp [Host.ofNode]
      · simp [h0, h1]
  · refine ⟨?_, ?_⟩
    · intro p hp
      have hp : p = ⟨⟨.v4 0xC0A80001, 3610⟩, 1, 0, bs⟩ := by simpa [exPair] using hp
      subst hp
      exact ⟨_, moa, rfl, rfl⟩
    · intro t ht j hj _
      rw [toa t ht] at hj
      have : j = 1 := by simpa [exOwn] using hj.symm
      subst this
      exact ⟨⟨⟨.v4 0xC0A80001, 3610⟩, 1, 0, bs⟩, by simp [exPair], rfl, by rw [toa t ht], by rw [toa t ht], hl1⟩
  · intro p hp
    have hp : p = ⟨⟨.v4 0xC0A80001, 3610⟩, 1, 0, bs⟩ := by simpa [exPair] using hp
    subst hp
    exact Or.inr ⟨_, moa, rfl, rfl, by intro j hj; revert hj; simp [exOwn]⟩
  · intro k g u hu
    simp only [List.nil_append, List.mem_append, List.mem_map, Prod.mk.injEq, List.mem_cons, List.not_mem_nil, or_false] at hu
    rcases hu with ⟨x, hx, _, rfl⟩ | ⟨x, hx, _, rfl⟩ | ⟨x, rfl, _, hx⟩
    · exact fits_all hfit1 hx
    · exact fits_all hfit2 hx
    · cases hx

/-- Non-vacuity of the theorems above: host 0 writes property 0xB0 of an object of host 1, gets the confirmation, the
application of host 1 sets another property, host 0 reads property 0xB0 and gets what it has written. -/
example : ∃ (db : Database) (n₀ n : Net Nat) (aw ar : Message), standardDb .dev .ascending = .ok db ∧ Ready .dev exOwn n₀ ∧
    Session .dev db exOwn n₀ [.called 0 1 exWrite [(0, aw)], .set 1 0x029001 0x80 [0x31], .called 0 1 exAsk [(1, ar)]] n ∧
    Running n₀ 0 ∧ Running n₀ 1 ∧ (∃ o ∈ (n₀.hosts 1).node.objects, o.code = exAsk.deoj ∧ o.code = exWrite.deoj) ∧
    (n₀.hosts 0).node.lastTid.toNat + 2 < 65536 ∧
    aw.esvByte = 0x71 ∧ ar.esvByte = 0x72 ∧ ar.properties = [⟨0xB0, [0x42]⟩] := by
  obtain ⟨db, hdb, _⟩ := C21_builds .dev .ascending
  obtain ⟨o, A, oa, rq, B, ob, rs, A', m', ho, hk, hk2, ha, hoa, hr, hb, hob, hm, hobs, hfit1, hfit2, hcode, hfin⟩ :
      ∃ o A oa rq B ob rs A' m', exLight = .ok o ∧ (∀ k : UInt8, ((o.properties k).all (fun p => p.code == k)) = true) ∧
      (∀ k : UInt8, ((o.properties k).all (fun p => decide (0x80 ≤ p.code))) = true) ∧
      exCaller.step .dev (.post ⟨.v4 0xC0A80002, 3610⟩ exWrite allOk) = .ok (A, oa) ∧
      txs oa = [(⟨.v4 0xC0A80001, ⟨.v4 0xC0A80002, 3610⟩, (exWrite.setTid 1).bytes⟩ : Tx)] ∧
      recvLoop [.datagram (exWrite.setTid 1).bytes ⟨.v4 0xC0A80001, 3610⟩] = ([rq], .running) ∧
      (exCounting o).observe .dev .ascending allOk rq = .ok (B, ob) ∧
      txs ob = [(⟨.v4 0xC0A80002, ⟨.v4 0xC0A80001, 3610⟩, exWritten⟩ : Tx)] ∧
      recvLoop [.datagram exWritten ⟨.v4 0xC0A80002, 3610⟩] = ([rs], .running) ∧
      A.observe .dev .ascending allOk rs = .ok (A', [.deliver 0 m']) ∧
      oa.all fitsOut = true ∧ ob.all fitsOut = true ∧ o.code = 0x029001 ∧
      ∃ A₁ oa₁ rq₁ B₁ ob₁ rs₁ A₂ m₂,
        A'.step .dev (.post ⟨.v4 0xC0A80002, 3610⟩ exAsk allOk) = .ok (A₁, oa₁) ∧
        txs oa₁ = [(⟨.v4 0xC0A80001, ⟨.v4 0xC0A80002, 3610⟩, (exAsk.setTid 2).bytes⟩ : Tx)] ∧
        recvLoop [.datagram (exAsk.setTid 2).bytes ⟨.v4 0xC0A80001, 3610⟩] = ([rq₁], .running) ∧
        (B.setProperty 0x029001 0x80 [0x31]).2.observe .dev .ascending allOk rq₁ = .ok (B₁, ob₁) ∧
        txs ob₁ = [(⟨.v4 0xC0A80002, ⟨.v4 0xC0A80001, 3610⟩, exTold⟩ : Tx)] ∧
        recvLoop [.datagram exTold ⟨.v4 0xC0A80002, 3610⟩] = ([rs₁], .running) ∧
        A₁.observe .dev .ascending allOk rs₁ = .ok (A₂, [.deliver 1 m₂]) ∧
        oa₁.all fitsOut = true ∧ ob₁.all fitsOut = true ∧ m'.esvByte = 0x71 ∧ m₂.esvByte = 0x72 ∧
        m₂.properties = [⟨0xB0, [0x42]⟩] := by
    refine ⟨_, _, _, _, _, _, _, _, _, rfl, by decide +kernel, by decide +kernel, rfl, by decide +kernel, rfl, rfl, by decide +kernel,
      rfl, rfl, by decide +kernel, by decide +kernel, by decide +kernel, ?_⟩
    exact ⟨_, _, _, _, _, _, _, _, rfl, by decide +kernel, rfl, rfl, by decide +kernel, rfl, rfl, by decide +kernel,
      by decide +kernel, by decide +kernel, by decide +kernel, by decide +kernel⟩
  obtain ⟨A₁, oa₁, rq₁, B₁, ob₁, rs₁, A₂, m₂, ka, koa, kr, kb, kob, km, kobs, kfit1, kfit2, kw, ke, kp⟩ := hfin
  have hq : AtRest exOwn (exPair exCaller (exCounting o)) := by
    refine ⟨rfl, rfl, ?_⟩
    intro i s hs
    unfold exPair at hs
    simp only [] at hs
    split at hs
    · rename_i h; subst h
      simp only [Host.threads, Host.ofNode, exCaller, List.append_nil, List.mem_cons, List.not_mem_nil, or_false] at hs
      rw [hs]; rfl
    · split at hs
      · rename_i h; subst h
        simp only [Host.threads, Host.ofNode, exCounting, List.append_nil, List.mem_cons, List.not_mem_nil, or_false] at hs
        rw [hs]; rfl
      · simp [Host.threads, Manager.new] at hs
  have hobj : ∀ k, ∀ x ∈ ((exPair exCaller (exCounting o)).hosts k).node.objects, x = o := by
    intro k x hx
    unfold exPair at hx
    simp only [] at hx
    split at hx
    · simp [Host.ofNode, exCaller] at hx
    · split at hx
      · simpa [Host.ofNode, exCounting] using hx
      · simp at hx
  have hhan : ∀ k, ∀ x ∈ ((exPair exCaller (exCounting o)).hosts k).node.handlers, x = countCalls := by
    intro k x hx
    unfold exPair at hx
    simp only [] at hx
    split at hx
    · simp [Host.ofNode, exCaller] at hx
    · split at hx
      · simpa [Host.ofNode, exCounting] using hx
      · simp at hx
  have hA : A'.transport = exCaller.transport := by
    have h1 : A.transport = exCaller.transport := by
      simp only [Node.step, Node.postMessage, Res.ok.injEq, Prod.mk.injEq] at ha
      rw [← ha.1]; simp [Node.updateTid_transport]
    exact (observe_frame hobs).2.1.trans h1
  have hB : B.transport = (exCounting o).transport := (observe_frame hb).2.1
  have s1 := pair_call (db := db) .start rfl rfl (by decide +kernel) (by decide +kernel) (by decide +kernel) ha hoa hr hb hob hm hobs
    hfit1 hfit2
  have s2 := Session.set (db := db) 1 0x029001 0x80 [0x31] s1 (outs := [])
    (.mk { (exPair A' B).hosts 1 with node := (B.setProperty 0x029001 0x80 [0x31]).2 } [] [] trivial
      (by simp [Host.step, Node.step, exPair, Host.ofNode]) (by intro p hp; cases hp))
  have e2 : ({ (exPair A' B).setHost 1 { (exPair A' B).hosts 1 with node := (B.setProperty 0x029001 0x80 [0x31]).2 } with
      flying := (exPair A' B).flying ++ [] } : Net Nat) = exPair A' (B.setProperty 0x029001 0x80 [0x31]).2 := by
    unfold exPair Net.setHost
    simp only [List.append_nil, Net.mk.injEq, and_true]
    funext k
    by_cases h1 : k = 1
    · subst h1; simp [Host.ofNode]
    · simp [h1]
  rw [e2] at s2
  have s3 := pair_call (db := db) s2 hA (by rw [setProperty_frame]; exact hB) (by decide +kernel) (by decide +kernel) (by decide +kernel) ka koa kr
    kb kob km kobs kfit1 kfit2
  refine ⟨db, _, _, m', m₂, hdb, ⟨hq, ?_, ?_⟩, s3, ?_, ?_, ?_, ?_, kw, ke, kp⟩
  · intro k x hx
    rw [hobj k x hx]
    refine ⟨?_, Or.inr ?_⟩
    · intro k p hp
      have := hk k
      rw [hp] at this
      simpa using this
    · intro k p hp
      have := hk2 k
      rw [hp] at this
      simpa using this
  · intro k x hx
    rw [hhan k x hx]
    exact ⟨fun _ _ _ _ => rfl, fun _ _ _ _ _ _ _ _ => rfl⟩
  · exact ⟨⟨0, _, rfl, rfl⟩, by simp [exPair, Host.ofNode, exCaller], by
      intro s hs
      simp only [exPair, Host.threads, Host.ofNode, exCaller, if_true, List.append_nil, List.mem_cons, List.not_mem_nil, or_false] at hs
      rw [hs]; rfl, fun _ => rfl⟩
  · exact ⟨⟨0, _, rfl, rfl⟩, by simp [exPair, Host.ofNode, exCounting], by
      intro s hs
      have : s = ⟨.v4 0xC0A80002, [.node], .running⟩ := by simpa [exPair, Host.threads, Host.ofNode, exCounting] using hs
      rw [this]; rfl, fun _ => rfl⟩
  · refine ⟨o, by simp [exPair, Host.ofNode, exCounting], ?_, ?_⟩ <;> rw [hcode] <;> decide +kernel
  · simp [exPair, Host.ofNode, exCaller]

end Uecho
