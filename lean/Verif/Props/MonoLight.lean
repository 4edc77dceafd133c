import Verif.Spec.MonoLight
import Verif.Spec.Crash
import Verif.Props.Handlers
import Verif.Props.Device
import Verif.Props.Crash
import Verif.Props.Discovery
/-!
# The example light: C68
-/
namespace Uecho
open Spec

/-- What every reachable light satisfies. -/
structure Light (b : Build) (n : Node Bool) (o : Object) : Prop where
  keys : ∀ x ∈ n.objects, KeysOk x
  handlers : n.handlers = [nodeHandler, monoLightHandler b]
  found : findObject n.objects monoLightCode = some o
  attrs : ∀ c, (o.properties c).map attrsOf = (standardDef monoLightCode c).map attrsOf

theorem monoLight_passive (b : Build) : Passive (monoLightHandler b) := by
  intro s o esv p
  unfold monoLightHandler
  split
  · rfl
  · split <;> first | rfl | skip
    all_goals (split; rotate_left; · rfl)
    all_goals (split; rotate_left; · rfl)
    all_goals (split; · rfl)
    all_goals (split <;> rfl)

theorem monoLight_stateless (b : Build) : Stateless (monoLightHandler b) := by
  intro s s' o o' esv p hc _
  unfold monoLightHandler
  rw [hc]
  split
  · rfl
  · split <;> first | rfl | skip
    all_goals (split; rotate_left; · rfl)
    all_goals (split; rotate_left; · rfl)
    all_goals (split; · rfl)
    all_goals (split <;> rfl)

theorem light_passive {b : Build} {n : Node Bool} {o : Object} (h : Light b n o) : ∀ f ∈ n.handlers, Passive f := by
  rw [h.handlers]
  intro f hf
  simp only [List.mem_cons, List.not_mem_nil, or_false] at hf
  rcases hf with rfl | rfl
  · exact nodeHandler_passive
  · exact monoLight_passive b

theorem light_stateless {b : Build} {n : Node Bool} {o : Object} (h : Light b n o) : ∀ f ∈ n.handlers, Stateless f := by
  rw [h.handlers]
  intro f hf
  simp only [List.mem_cons, List.not_mem_nil, or_false] at hf
  rcases hf with rfl | rfl
  · exact nodeHandler_stateless
  · exact monoLight_stateless b

theorem nodeHandler_quiet {S : Type} : Quiet (nodeHandler (S := S)) := by
  intro s o esv p
  unfold nodeHandler
  split
  · rfl
  · split <;> first | rfl | (split <;> rfl)

theorem Light.code {b : Build} {n : Node Bool} {o : Object} (h : Light b n o) : o.code = monoLightCode := by
  obtain ⟨_, _, _, _, h3⟩ := findObject_split h.found
  exact h3

/-- The operating status of the light: readable, writable, one byte. -/
theorem Light.status {b : Build} {n : Node Bool} {o : Object} (h : Light b n o) :
    ∃ p, o.properties 0x80 = some p ∧ p.writeAttr ≠ .Prohibited ∧ p.readAttr ≠ .Prohibited ∧ p.capacity = 1 := by
  have hdef : (standardDef monoLightCode 0x80).map (fun p => (p.writeAttr, p.readAttr, p.capacity)) =
      some (.Optional, .Required, 1) := by decide +kernel
  have ha := h.attrs 0x80
  cases hp : o.properties 0x80 with
  | none =>
    rw [hp] at ha
    cases hd : standardDef monoLightCode 0x80 with
    | none => rw [hd] at hdef; simp at hdef
    | some q => rw [hd] at ha; simp at ha
  | some p =>
    cases hd : standardDef monoLightCode 0x80 with
    | none => rw [hd] at hdef; simp at hdef
    | some q =>
      rw [hp, hd] at ha
      rw [hd] at hdef
      simp only [Option.map_some, Option.some.injEq, attrsOf, Prod.mk.injEq] at ha hdef
      refine ⟨p, rfl, ?_, ?_, ?_⟩ <;> simp_all


/-- What the light is asked by one property of a write: `some true` for on, `some false` for off. -/
def lampOrder (p : WProperty) : Option Bool :=
  if p = ⟨0x80, [0x30]⟩ then some true else if p = ⟨0x80, [0x31]⟩ then some false else none

/-- The handler's answer for the light's own object and a permitted write: exactly the two orders are accepted. -/
theorem monoLight_write {b : Build} {on : Bool} {o : Object} {esv : ESV} {p : WProperty}
    (hc : o.code = monoLightCode) (he : esv = .WriteRequest ∨ esv = .WriteReadRequest)
    (hl : p.code = 0x80 → p.data.length ≤ 1) :
    monoLightHandler b on o esv p = ((lampOrder p).isSome, o, (lampOrder p).getD on) := by
  obtain ⟨code, data⟩ := p
  simp only at hl
  have hcode : ¬ o.code ≠ monoLightCode := by simp [hc]
  by_cases h8 : code = 0x80
  · subst h8
    have hl := hl rfl
    obtain ⟨v, hv, hvn⟩ := C11_toU32 b data (by omega)
    have key : ∀ x : UInt8, (v = x.toUInt32 ↔ data = [x]) ∨ x = 0 := by
      intro x
      by_cases hx : x = 0
      · exact Or.inr hx
      refine Or.inl ?_
      match data, hl with
      | [], _ =>
        have : v.toNat = 0 := hvn
        constructor
        · intro e; exfalso; apply hx
          rw [e] at this
          exact UInt8.toNat.inj (by simpa using this)
        · intro e; simp at e
      | [y], _ =>
        have : v.toNat = y.toNat := by rw [hvn]; simp [beVal]
        constructor
        · intro e
          rw [e] at this
          have : x = y := UInt8.toNat.inj (by simpa using this)
          rw [this]
        · intro e
          simp only [List.cons.injEq, and_true] at e
          subst e
          exact UInt32.toNat.inj (by simpa using this)
    have k30 : v = 0x30 ↔ data = [0x30] := (key 0x30).resolve_right (by decide)
    have k31 : v = 0x31 ↔ data = [0x31] := (key 0x31).resolve_right (by decide)
    have hcases : monoLightHandler b on o esv ⟨0x80, data⟩ =
        if v = 0x30 then (true, o, true) else if v = 0x31 then (true, o, false) else (false, o, on) := by
      unfold monoLightHandler
      rw [if_neg hcode]
      rcases he with rfl | rfl <;> simp only [if_true, hv]
    rw [hcases]
    simp only [k30, k31]
    unfold lampOrder
    simp only [WProperty.mk.injEq, true_and]
    split
    · rfl
    · split <;> rfl
  · have : lampOrder ⟨code, data⟩ = none := by simp [lampOrder, h8]
    rw [this]
    unfold monoLightHandler
    rw [if_neg hcode]
    rcases he with rfl | rfl <;> simp [h8]

/-- For other services the handler refuses. -/
theorem monoLight_other {b : Build} {on : Bool} {o : Object} {esv : ESV} {p : WProperty}
    (he : esv ≠ .WriteRequest) (he' : esv ≠ .WriteReadRequest) : monoLightHandler b on o esv p = (false, o, on) := by
  unfold monoLightHandler
  split
  · rfl
  · cases esv <;> simp_all

theorem nodeHandler_refuses {S : Type} {s : S} {o : Object} {esv : ESV} {p : WProperty} (hc : o.code = monoLightCode) :
    nodeHandler s o esv p = (false, o, s) := by
  unfold nodeHandler
  rw [if_pos (by rw [hc]; decide)]

/-- The light after all handlers have been called. -/
theorem light_handlers {b : Build} {n : Node Bool} {o : Object} (h : Light b n o) (esv : ESV) (ps : List WProperty)
    (copy : Object) : (afterHandlers esv ps n.handlers (copy, n.app)).2 =
      (afterHandler (monoLightHandler b) esv ps (copy, n.app)).2 := by
  rw [h.handlers, afterHandlers, afterHandlers, afterHandlers]
  have e1 := afterHandler_passive' (nodeHandler_passive (S := Bool)) (esv := esv) (ps := ps) (x := (copy, n.app))
  have e2 := afterHandler_quiet (nodeHandler_quiet (S := Bool)) (esv := esv) (ps := ps) (x := (copy, n.app))
  rw [Prod.ext e1 e2]

/-- The capacity of the operating status in a permitted write. -/
theorem light_short {b : Build} {n : Node Bool} {o : Object} (h : Light b n o) {msg : Message}
    (ha : Allowed o msg) : ∀ p ∈ writesOf msg, p.code = 0x80 → p.data.length ≤ 1 := by
  intro p hp h8
  obtain ⟨q, hq, _, hcap⟩ := ha.1 p hp
  obtain ⟨q', hq', _, _, hc1⟩ := h.status
  rw [h8, hq'] at hq
  obtain rfl := Option.some.inj hq
  rw [hc1] at hcap
  omega

theorem esv_60 {m : Message} (h : m.esvByte = 0x60) : m.esv = .WriteRequest := by
  unfold Message.esv; rw [h]; rfl
theorem esv_6E {m : Message} (h : m.esvByte = 0x6E) : m.esv = .WriteReadRequest := by
  unfold Message.esv; rw [h]; rfl

/-- Called with the orders of a permitted write, the handler switches the light as often as ordered. -/
theorem light_orders {b : Build} {o : Object} (hc : o.code = monoLightCode) {esv : ESV}
    (he : esv = .WriteRequest ∨ esv = .WriteReadRequest) :
    ∀ (ps : List WProperty) (on : Bool), (∀ p ∈ ps, p.code = 0x80 → p.data.length ≤ 1) →
      (afterHandler (monoLightHandler b) esv ps (o, on)).2 = ps.foldl (fun on p => (lampOrder p).getD on) on
  | [], _, _ => rfl
  | p :: ps, on, h => by
    rw [afterHandler, monoLight_write hc he (h p (by simp)), List.foldl_cons]
    exact light_orders hc he ps _ (fun q hq => h q (by simp [hq]))

/-- A handler call for another object, or with another service, leaves the light alone. -/
theorem light_quiet {b : Build} {esv : ESV} (ps : List WProperty) (x : Object × Bool)
    (h : x.1.code ≠ monoLightCode ∨ (esv ≠ .WriteRequest ∧ esv ≠ .WriteReadRequest)) :
    (afterHandler (monoLightHandler b) esv ps x).2 = x.2 := by
  have e : ∀ p, monoLightHandler b x.2 x.1 esv p = (false, x.1, x.2) := by
    intro p
    rcases h with h | h
    · unfold monoLightHandler; rw [if_pos h]
    · exact monoLight_other h.1 h.2
  induction ps with
  | nil => rfl
  | cons p ps ih => rw [afterHandler, e p]; exact ih

/-- Which requests for the light are approved. -/
theorem light_approved {b : Build} {n : Node Bool} {o : Object} (h : Light b n o) {msg : Message}
    (hs : msg.esvByte = 0x60 → ∀ p ∈ msg.properties, p.code = 0x80 → p.data.length ≤ 1) (h6 : msg.esvByte ≠ 0x6E) :
    Approved n.handlers o msg ↔
      msg.properties = [] ∨ (msg.esvByte = 0x60 ∧ ∀ p ∈ msg.properties, (lampOrder p).isSome = true) := by
  unfold Approved
  rw [h.handlers]
  have hnode : (∀ p ∈ msg.properties, ∀ s : Bool, (nodeHandler s o msg.esv p).1 = true) ↔ msg.properties = [] := by
    constructor
    · intro hx
      cases hp : msg.properties with
      | nil => rfl
      | cons p ps =>
        have := hx p (by rw [hp]; simp) true
        rw [nodeHandler_refuses h.code] at this
        simp at this
    · intro e p hp; rw [e] at hp; simp at hp
  have hmono : (∀ p ∈ msg.properties, ∀ s : Bool, (monoLightHandler b s o msg.esv p).1 = true) ↔
      msg.properties = [] ∨ (msg.esvByte = 0x60 ∧ ∀ p ∈ msg.properties, (lampOrder p).isSome = true) := by
    by_cases h60 : msg.esvByte = 0x60
    · have he := esv_60 h60
      have : ∀ p ∈ msg.properties, ∀ s : Bool, (monoLightHandler b s o msg.esv p).1 = (lampOrder p).isSome :=
        fun p hp s => by rw [monoLight_write h.code (Or.inl he) (hs h60 p hp)]
      constructor
      · exact fun hx => Or.inr ⟨h60, fun p hp => by rw [← this p hp true]; exact hx p hp true⟩
      · rintro (e | ⟨_, hx⟩) p hp s
        · rw [e] at hp; simp at hp
        · rw [this p hp s]; exact hx p hp
    · have h1 : msg.esv ≠ .WriteRequest := fun e => h60 ((fromU8_60 _).mp e)
      have h2 : msg.esv ≠ .WriteReadRequest := fun e => h6 ((fromU8_6E _).mp e)
      constructor
      · intro hx
        left
        cases hp : msg.properties with
        | nil => rfl
        | cons p ps =>
          have := hx p (by rw [hp]; simp) true
          rw [monoLight_other h1 h2] at this
          simp at this
      · rintro (e | ⟨e, _⟩)
        · intro p hp; rw [e] at hp; simp at hp
        · exact absurd e h60
  simp only [List.mem_cons, List.not_mem_nil, or_false, exists_eq_or_imp, exists_eq_left, reduceCtorEq, false_or]
  rw [hnode, hmono]
  constructor
  · rintro (e | e)
    · exact Or.inl e
    · exact e
  · exact Or.inr

/-- Everything about one message arriving at the light. -/
theorem light_observe {b : Build} {ω : HashOrder} {ok : Nat → Bool} {n n' : Node Bool} {o : Object} {msg : Message}
    {outs : List Out} (h : Light b n o) (hobs : n.observe b ω ok msg = .ok (n', outs)) :
    ∃ o', Light b n' o' ∧
      (∀ c, isMapCode c = false → valuesOf o' c = (valuesOf o).judgedStep n.handlers o msg c) ∧
      (¬ (isRequestByte msg.esvByte = true ∧ msg.deoj = monoLightCode ∧ Allowed o msg) → n'.app = n.app) ∧
      (isRequestByte msg.esvByte = true → msg.deoj = monoLightCode → Allowed o msg →
        ∃ copy : Object, copy.code = monoLightCode ∧
          n'.app = (afterHandler (monoLightHandler b) msg.esv msg.properties (copy, n.app)).2) ∧
      (isRequestByte msg.esvByte = true → msg.deoj = monoLightCode →
        (Allowed o msg ∧ Approved n.handlers o msg →
          (replies outs).map (fun u => u.esvByte) = (successByte msg.esvByte).toList) ∧
        (¬ (Allowed o msg ∧ Approved n.handlers o msg) →
          (replies outs).map (fun u => u.esvByte) = [errorByte msg.esvByte] ∧ n'.objects = n.objects)) := by
  have hfound : findObject n.objects o.code = some o := by rw [h.code]; exact h.found
  obtain ⟨hk', o', ho', hattr', hval'⟩ := judged_step (v := valuesOf o)
    ⟨h.keys, o, hfound, fun _ => rfl, fun _ _ => rfl⟩ (light_passive h) (light_stateless h) hobs
  rw [h.code] at ho'
  have happ := C67_app_state b ω ok n n' msg outs h.keys hobs
  have htarget : ∀ pre dst post, msg.deoj = monoLightCode → Targets n msg pre dst post → dst = o := by
    intro pre dst post hd ht
    have := targets_iff_find.mp ⟨pre, post, ht⟩
    rw [hd, h.found] at this
    exact (Option.some.inj this).symm
  refine ⟨o', ⟨hk', by rw [(observe_frame hobs).1]; exact h.handlers, ho', fun c => (hattr' c).trans (h.attrs c)⟩,
    hval', ?_, ?_, ?_⟩
  · intro hn
    by_cases hr : isRequestByte msg.esvByte = true
    · rcases targets_or_silent n msg with ⟨pre, dst, post, ht⟩ | hno
      · rcases Classical.em (Allowed dst msg) with ha | ha
        · by_cases hd : msg.deoj = monoLightCode
          · rw [htarget pre dst post hd ht] at ha
            exact absurd ⟨hr, hd, ha⟩ hn
          · obtain ⟨copy, _, hcc, hap⟩ := happ.2 pre dst post hr ht ha
            rw [hap, light_handlers h]
            exact light_quiet _ _ (Or.inl (by rw [hcc, ht.code]; exact hd))
        · refine happ.1 (Or.inr ?_)
          intro pre' dst' post' ht'
          have e1 := targets_iff_find.mp ⟨pre, post, ht⟩
          have e2 := targets_iff_find.mp ⟨pre', post', ht'⟩
          rw [e1] at e2
          rw [← Option.some.inj e2]; exact ha
      · refine happ.1 (Or.inr ?_)
        intro pre dst post ht
        exact absurd ht.code (hno dst (by rw [ht.split]; simp))
    · exact happ.1 (Or.inl (by simpa using hr))
  · intro hr hd ha
    obtain ⟨pre, post, ht⟩ := targets_iff_find.mpr (show findObject n.objects msg.deoj = some o by rw [hd]; exact h.found)
    obtain ⟨copy, _, hcc, hap⟩ := happ.2 pre o post hr ht ha
    exact ⟨copy, hcc.trans h.code, by rw [hap, light_handlers h]⟩
  · intro hr hd
    obtain ⟨h1, h2⟩ := C35_judged_replies b ω ok n n n' [] [] outs o msg h.keys hfound (light_passive h)
      (light_stateless h) rfl hobs hr (by rw [hd, h.code])
    exact ⟨fun hx => (h1 hx).1, h2⟩

theorem alikeAll_map {g : UInt8 → Property → Property} (hg : ∀ c p, attrsOf (g c p) = attrsOf p) :
    ∀ l, AlikeAll l (l.map (mapProperties g))
  | [] => trivial
  | o :: l => ⟨⟨rfl, fun c => by
      show ((o.properties c).map (g c)).map attrsOf = _
      cases o.properties c <;> simp [hg]⟩, alikeAll_map hg l⟩

theorem attrs_started (c : UInt8) (p : Property) : attrsOf (startedProperty c p) = attrsOf p := by
  unfold startedProperty; split
  · rfl
  · split <;> rfl

theorem attrs_stopped (c : UInt8) (p : Property) : attrsOf (stoppedProperty c p) = attrsOf p := by
  unfold stoppedProperty; split <;> rfl

theorem code_of_attrs {p q : Property} (h : attrsOf p = attrsOf q) : p.code = q.code := by
  have := congrArg Property.code h; exact this

theorem light_of_objects {b : Build} {n n' : Node Bool} {o : Object} (h : Light b n o)
    {g : UInt8 → Property → Property} (hg : ∀ c p, attrsOf (g c p) = attrsOf p)
    (hh : n'.handlers = n.handlers) (ho : n'.objects = n.objects.map (mapProperties g)) :
    Light b n' (mapProperties g o) := by
  refine ⟨?_, by rw [hh]; exact h.handlers, ?_, ?_⟩
  · intro x hx
    rw [ho] at hx
    obtain ⟨y, hy, rfl⟩ := List.mem_map.mp hx
    exact mapProperties_keysOk (fun c p => code_of_attrs (hg c p)) (h.keys y hy)
  · rw [ho, findObject_mapProperties, h.found]; rfl
  · intro c
    rw [← h.attrs c]
    show ((o.properties c).map (g c)).map attrsOf = _
    cases o.properties c <;> simp [hg]

theorem light_step {b : Build} {n n' : Node Bool} {o : Object} {op : Op Bool} {outs : List Out} (h : Light b n o)
    (hop : LightOp op) (hs : n.step b op = .ok (n', outs)) : ∃ o', Light b n' o' := by
  cases op with
  | start menv uenv ok =>
    obtain ⟨⟨r, m, os⟩, hr, hs⟩ := Res.bind_eq_ok.mp hs
    simp only [Res.pure_eq, Res.ok.injEq, Prod.mk.injEq] at hs
    obtain ⟨rfl, rfl⟩ := hs
    obtain ⟨up, t, _, ⟨_, _, rfl, _⟩ | ⟨_, n₀, hn, _, hn', _⟩⟩ := start_result hr
    · exact ⟨o, h.keys, h.handlers, h.found, h.attrs⟩
    · refine ⟨_, light_of_objects h attrs_started ?_ ?_⟩
      · rw [hn', (announce_frame ok n₀).1, hn]
      · rw [hn', (announce_frame ok n₀).1, hn]
  | stop =>
    obtain ⟨⟨r, m⟩, hr, hs⟩ := Res.bind_eq_ok.mp hs
    simp only [Res.pure_eq, Res.ok.injEq, Prod.mk.injEq] at hs
    obtain ⟨rfl, rfl⟩ := hs
    rcases Classical.em (ThreadsOk n.transport) with ht | ht
    · rw [(C42_stop n).1 ht] at hr
      simp only [Res.ok.injEq, Prod.mk.injEq] at hr
      rw [← hr.2]
      exact ⟨_, light_of_objects h attrs_stopped rfl rfl⟩
    · rw [(C42_stop n).2 ht] at hr; simp at hr
  | receive msg free ω ok =>
    simp only [Node.step, Node.observeTry] at hs
    cases free with
    | false =>
      simp only [Bool.not_false, if_true, Res.ok.injEq, Prod.mk.injEq] at hs
      rw [← hs.1]; exact ⟨o, h⟩
    | true =>
      simp only [Bool.not_true, Bool.false_eq_true, if_false] at hs
      obtain ⟨o', h', _⟩ := light_observe h hs
      exact ⟨o', h'⟩
  | _ => exact hop.elim

theorem light_run {b : Build} {ops : List (Op Bool)} : ∀ {n n' : Node Bool} {o : Object} {outs : List Out},
    Light b n o → (∀ op ∈ ops, LightOp op) → n.run b ops = .ok (n', outs) → ∃ o', Light b n' o' := by
  induction ops with
  | nil =>
    intro n n' o outs h _ hr
    simp only [Node.run, Res.ok.injEq, Prod.mk.injEq] at hr
    rw [← hr.1]; exact ⟨o, h⟩
  | cons op ops ih =>
    intro n n' o outs h hop hr
    obtain ⟨n₁, o₁, o₂, h1, h2, _⟩ := run_cons.mp hr
    obtain ⟨o', h'⟩ := light_step h (hop op (by simp)) h1
    exact ih h' (fun x hx => hop x (by simp [hx])) h2

theorem device_new_handlers {S : Type} {b : Build} {ω₀ : HashOrder} {db : Database} (hdb : standardDb b ω₀ = .ok db)
    {uuid : Nat → List UInt8} (hu : ∀ i, (uuid i).length = 16) {ω : HashOrder} {code : UInt32} {app : S}
    {d : Device} {n : Node S} (h : Device.new b db uuid ω code app = .ok (d, n)) :
    n.handlers = [nodeHandler] ∧ (∀ x ∈ n.objects, KeysOk x) ∧ n.app = app := by
  obtain ⟨n₀, h1, hinv, hcodes, _, hh, _, _, _, happ, _⟩ := newNode_inv hdb (hu 0) (hu 1) (ω.sub 0) app
  obtain ⟨o, h2, h3, h4, h5, h6⟩ := deviceObject_spec hdb (hu 2) (hu 3) (ω.sub 1) code
  unfold Device.new at h
  rw [h1] at h
  simp only [Res.bind_ok, Device.newWithNode, h2] at h
  obtain ⟨n₁, hn₁, h⟩ := Res.bind_eq_ok.mp h
  simp only [Res.pure_eq, Res.ok.injEq, Prod.mk.injEq] at h
  obtain ⟨_, rfl⟩ := h
  obtain ⟨np, ds, ho, hc, hs, hd⟩ := hinv.shape
  have hds : ds = [] := by rw [ho] at hcodes; exact (by simpa using hcodes : _ ∧ ds = []).2
  subst hds
  have hup := updateNodeProfile_eq b { deviceNodeNew n₀ with objects := (n₀.objects ++ [o]) } (np := np) (ds := [o])
    (show n₀.objects ++ [o] = _ by rw [ho]; rfl) hc
  rw [show Node.addObject b (deviceNodeNew n₀) o =
    Node.updateNodeProfile b { deviceNodeNew n₀ with objects := (n₀.objects ++ [o]) } from rfl, hup] at hn₁
  simp only [Res.ok.injEq] at hn₁
  rw [← hn₁]
  refine ⟨hh, ?_, happ⟩
  intro x hx
  simp only [List.mem_cons, List.not_mem_nil, or_false] at hx
  rcases hx with rfl | rfl
  · exact mapProperties_keysOk (fun c p => (profileProperty_code _ _ c p).1) (hinv.keys np (by rw [ho]; simp))
  · exact h5

theorem light_new {b : Build} {ω₀ : HashOrder} {db : Database} (hdb : standardDb b ω₀ = .ok db)
    {uuid : Nat → List UInt8} (hu : ∀ i, (uuid i).length = 16) (ω : HashOrder) :
    ∃ d n o, monoLightNew b db uuid ω = .ok (d, n) ∧ Light b n o ∧ n.app = false ∧
      n.property 0x029101 0x80 = some [0x31] := by
  obtain ⟨n, np, o, h1, h2, h3, h4, h5, h6⟩ := C20_new_device b ω₀ db hdb uuid hu ω monoLightCode false
  obtain ⟨e1, e2, e3⟩ := device_new_handlers hdb hu h1
  have hcode : o.code = monoLightCode := UInt32.toNat.inj (by rw [h4]; rfl)
  have hf : findObject n.objects monoLightCode = some o := by
    rw [h2, findObject, List.find?_cons, List.find?_cons]
    rw [show (np.code == monoLightCode) = false by rw [h3]; decide, show (o.code == monoLightCode) = true by rw [hcode]; decide]
  refine ⟨⟨monoLightCode⟩, n.addRequestHandler (monoLightHandler b), o, ?_, ⟨e2, ?_, hf, h5⟩, e3, ?_⟩
  · unfold monoLightNew; rw [h1]; rfl
  · show n.handlers ++ [monoLightHandler b] = _
    rw [e1]; rfl
  · obtain ⟨p, hp, hd⟩ := h6.1
    show (match findObject n.objects 0x029101 with
      | none => none
      | some o => match o.findProperty 0x80 with | none => none | some p => some p.data) = _
    rw [show (0x029101 : UInt32) = monoLightCode from rfl, hf]
    simp only [hp, hd]

theorem light_reached {b : Build} {n : Node Bool} (h : LightReached b n) : ∃ o, Light b n o := by
  obtain ⟨ω₀, db, uuid, ω, d, n₀, ops, outs, hdb, hu, hnew, hrun, hops⟩ := h
  obtain ⟨d', n', o, h1, h2, _⟩ := light_new hdb hu ω
  rw [hnew] at h1
  simp only [Res.ok.injEq, Prod.mk.injEq] at h1
  obtain ⟨_, rfl⟩ := h1
  exact light_run h2 hops hrun

theorem light_property {b : Build} {n : Node Bool} {o : Object} (h : Light b n o) (c : UInt8) :
    n.property 0x029101 c = valuesOf o c := by
  unfold Node.property valuesOf
  rw [show (0x029101 : UInt32) = monoLightCode from rfl, h.found]
  simp only [Object.findProperty]
  cases o.properties c <;> rfl

theorem lampOrder_on : lampOrder ⟨0x80, [0x30]⟩ = some true := by decide
theorem lampOrder_off : lampOrder ⟨0x80, [0x31]⟩ = some false := by decide

theorem allowed_status {b : Build} {n : Node Bool} {o : Object} (h : Light b n o) {m : Message} {v : UInt8}
    (hw : writesOf m = [⟨0x80, [v]⟩]) (hr : readsOf m = []) : Allowed o m := by
  obtain ⟨p, hp, h1, _, h3⟩ := h.status
  refine ⟨?_, by rw [hr]; simp⟩
  intro w hm
  rw [hw] at hm
  simp only [List.mem_cons, List.not_mem_nil, or_false] at hm
  subst hm
  exact ⟨p, hp, h1, Or.inr (by rw [h3]; simp)⟩

/-- C68: a write (0x60) of 0x30 or 0x31 to the operating status switches the light on or off, is stored in the
property and is not answered. -/
theorem C68_switch_partial (b : Build) (ω : HashOrder) (ok : Nat → Bool) (n n' : Node Bool) (m : Message)
    (outs : List Out) (h : LightReached b n) (v : UInt8) (hv : v = 0x30 ∨ v = 0x31) (hm : Orders m v)
    (hobs : n.observe b ω ok m = .ok (n', outs)) :
    n'.app = decide (v = 0x30) ∧ n'.property 0x029101 0x80 = some [v] ∧ LightAgrees n' ∧ replies outs = [] := by
  obtain ⟨o, hl⟩ := light_reached h
  obtain ⟨h60, hd, hp⟩ := hm
  have hr : isRequestByte m.esvByte = true := by rw [h60]; rfl
  have hw : writesOf m = [⟨0x80, [v]⟩] := by unfold writesOf; rw [h60, hp]; rfl
  have ha : Allowed o m := allowed_status hl hw (by unfold readsOf; rw [h60]; rfl)
  have hsome : (lampOrder ⟨0x80, [v]⟩) = some (decide (v = 0x30)) := by
    rcases hv with rfl | rfl <;> decide
  have happr : Approved n.handlers o m := by
    refine (light_approved hl (fun _ p hp' h8 => light_short hl ha p (by rw [hw, ← hp]; exact hp') h8) (by rw [h60]; decide)).mpr
      (Or.inr ⟨h60, ?_⟩)
    intro p hp'
    rw [hp] at hp'
    simp only [List.mem_cons, List.not_mem_nil, or_false] at hp'
    rw [hp', hsome]; rfl
  obtain ⟨o', hl', hval, _, happ, hrep⟩ := light_observe hl hobs
  obtain ⟨copy, hcc, happ⟩ := happ hr hd ha
  have e1 : n'.app = decide (v = 0x30) := by
    rw [happ, light_orders hcc (Or.inl (esv_60 h60)) _ _ (by
      intro p hp' h8; exact light_short hl ha p (by rw [hw, ← hp]; exact hp') h8), hp]
    simp only [List.foldl_cons, List.foldl_nil, hsome, Option.getD_some]
  have e2 : n'.property 0x029101 0x80 = some [v] := by
    rw [light_property hl', hval 0x80 rfl]
    unfold Values.judgedStep
    rw [if_pos ⟨hr, hd.trans hl.code.symm, ha, happr⟩, hw]
    obtain ⟨p, hp', _⟩ := hl.status
    simp [Values.write, lastWrite, valuesOf, hp']
  refine ⟨e1, e2, ?_, ?_⟩
  · unfold LightAgrees
    rw [e2, e1]
    rcases hv with rfl | rfl <;> rfl
  · have := (hrep hr hd).1 ⟨ha, happr⟩
    rw [h60, show successByte 0x60 = none from rfl] at this
    simpa using this

/-- C68: any other message with at most one property, except write-read requests (0x6E), changes neither the
light nor any property of its object. -/
theorem C68_ignores_partial (b : Build) (ω : HashOrder) (ok : Nat → Bool) (n n' : Node Bool) (m : Message)
    (outs : List Out) (h : LightReached b n) (h1 : m.properties.length ≤ 1) (h6 : m.esvByte ≠ 0x6E)
    (hno : ∀ v, v = 0x30 ∨ v = 0x31 → ¬ Orders m v) (hobs : n.observe b ω ok m = .ok (n', outs)) :
    n'.app = n.app ∧ ∀ c, isMapCode c = false → n'.property 0x029101 c = n.property 0x029101 c := by
  obtain ⟨o, hl⟩ := light_reached h
  obtain ⟨o', hl', hval, happ0, happ, hrep⟩ := light_observe hl hobs
  have keep : ¬ (isRequestByte m.esvByte = true ∧ m.deoj = o.code ∧ Allowed o m ∧ Approved n.handlers o m) →
      ∀ c, isMapCode c = false → n'.property 0x029101 c = n.property 0x029101 c := by
    intro hx c hc
    rw [light_property hl', light_property hl, hval c hc]
    unfold Values.judgedStep
    rw [if_neg hx]
  rcases Classical.em (isRequestByte m.esvByte = true ∧ m.deoj = monoLightCode ∧ Allowed o m) with ⟨hr, hd, ha⟩ | hx
  rotate_left
  · exact ⟨happ0 hx, keep (fun ⟨a, b, c, _⟩ => hx ⟨a, b.trans hl.code, c⟩)⟩
  obtain ⟨copy, hcc, happ⟩ := happ hr hd ha
  cases hp : m.properties with
  | nil =>
    refine ⟨by rw [happ, hp]; rfl, ?_⟩
    intro c hc
    rw [light_property hl', light_property hl, hval c hc]
    unfold Values.judgedStep
    have hw : writesOf m = [] := by unfold writesOf; rw [if_neg h6, hp]; split <;> rfl
    split
    · rw [hw]; rfl
    · rfl
  | cons p ps =>
    have hps : ps = [] := by
      rw [hp] at h1
      simp only [List.length_cons] at h1
      exact List.length_eq_zero_iff.mp (by omega)
    subst hps
    by_cases h60 : m.esvByte = 0x60
    · have hw : writesOf m = m.properties := by unfold writesOf; rw [if_pos (Or.inl h60)]
      have hshort : ∀ q ∈ m.properties, q.code = 0x80 → q.data.length ≤ 1 := by
        intro q hq; exact light_short hl ha q (by rw [hw]; exact hq)
      have hnone : lampOrder p = none := by
        unfold lampOrder
        rw [if_neg, if_neg]
        · rintro rfl; exact hno 0x31 (Or.inr rfl) ⟨h60, hd, hp⟩
        · rintro rfl; exact hno 0x30 (Or.inl rfl) ⟨h60, hd, hp⟩
      constructor
      · rw [happ, light_orders hcc (Or.inl (esv_60 h60)) _ _ hshort, hp]
        simp [hnone]
      · apply keep
        rintro ⟨_, _, _, hap⟩
        rcases (light_approved hl (fun _ => hshort) h6).mp hap with e | ⟨_, e⟩
        · rw [hp] at e; simp at e
        · have := e p (by rw [hp]; simp)
          rw [hnone] at this; simp at this
    · constructor
      · rw [happ]
        exact light_quiet _ _ (Or.inr ⟨fun e => h60 ((fromU8_60 _).mp e), fun e => h6 ((fromU8_6E _).mp e)⟩)
      · apply keep
        rintro ⟨_, _, _, hap⟩
        rcases (light_approved hl (fun e => absurd e h60) h6).mp hap with e | ⟨e, _⟩
        · rw [hp] at e; simp at e
        · exact h60 e

theorem reached_step {b : Build} {n n' : Node Bool} {op : Op Bool} {outs : List Out} (h : LightReached b n)
    (hop : LightOp op) (hs : n.step b op = .ok (n', outs)) : LightReached b n' := by
  obtain ⟨ω₀, db, uuid, ω, d, n₀, ops, os, hdb, hu, hnew, hrun, hops⟩ := h
  refine ⟨ω₀, db, uuid, ω, d, n₀, ops ++ [op], os ++ outs, hdb, hu, hnew, ?_, ?_⟩
  · exact run_append.mpr ⟨n, os, outs, hrun, run_cons.mpr ⟨n', outs, [], hs, rfl, by simp⟩, rfl⟩
  · intro x hx
    rcases List.mem_append.mp hx with hx | hx
    · exact hops x hx
    · rw [List.mem_singleton.mp hx]; exact hop

/-- C68: once the reported operating status agrees with the light (which every order establishes,
`C68_switch_partial`), it keeps agreeing whatever messages arrive, as long as no processed message is a write-read
request (0x6E) or carries more than one property. Missing: those messages, and a start or stop of the device, for
which it is false (`C68_fails_write_read`, `C68_fails_batch`, `C68_fails_start`). -/
theorem C68_agrees_partial (b : Build) (n n' : Node Bool) (l : List Arrival) (outs : List Out)
    (h : LightReached b n) (ha : LightAgrees n)
    (hl : ∀ m ∈ processed l, m.properties.length ≤ 1 ∧ m.esvByte ≠ 0x6E)
    (hrun : n.run b (arrivals l) = .ok (n', outs)) : LightAgrees n' := by
  induction l generalizing n outs with
  | nil =>
    simp only [arrivals, List.map_nil, Node.run, Res.ok.injEq, Prod.mk.injEq] at hrun
    rw [← hrun.1]; exact ha
  | cons a l ih =>
    simp only [arrivals, List.map_cons] at hrun
    obtain ⟨n₁, o₁, o₂, h1, h2, _⟩ := run_cons.mp hrun
    have hr := reached_step h (op := .receive a.msg a.free a.order a.ok) trivial h1
    simp only [Node.step, Node.observeTry] at h1
    cases hf : a.free with
    | false =>
      simp only [hf, Bool.not_false, if_true, Res.ok.injEq, Prod.mk.injEq] at h1
      obtain ⟨rfl, _⟩ := h1
      exact ih n o₂ h ha (fun m hm => hl m (by simpa [processed, hf] using hm)) h2
    | true =>
      simp only [hf, Bool.not_true, Bool.false_eq_true, if_false] at h1
      obtain ⟨hlen, h6⟩ := hl a.msg (by simp [processed, hf])
      refine ih n₁ o₂ hr ?_ (fun m hm => hl m (by
        simp only [processed, List.filter_cons, hf, if_true, List.map_cons, List.mem_cons]
        right; simpa [processed] using hm)) h2
      rcases Classical.em (∃ v, (v = 0x30 ∨ v = 0x31) ∧ Orders a.msg v) with ⟨v, hv, ho⟩ | hno
      · exact (C68_switch_partial b a.order a.ok n n₁ a.msg o₁ h v hv ho h1).2.2.1
      · obtain ⟨e1, e2⟩ := C68_ignores_partial b a.order a.ok n n₁ a.msg o₁ h hlen h6
          (fun v hv ho => hno ⟨v, hv, ho⟩) h1
        unfold LightAgrees
        rw [e1, e2 0x80 rfl]; exact ha

/-- C68 fails: the light cannot be read. Every request other than 0x60 and 0x6E for the light (0x61, 0x62, 0x63,
0x74) that names a property is answered with the error response. -/
theorem C68_fails_reads (b : Build) (ω : HashOrder) (ok : Nat → Bool) (n n' : Node Bool) (m : Message)
    (outs : List Out) (h : LightReached b n) (hd : m.deoj = 0x029101) (hp : m.properties ≠ [])
    (he : m.esvByte = 0x61 ∨ m.esvByte = 0x62 ∨ m.esvByte = 0x63 ∨ m.esvByte = 0x74)
    (hobs : n.observe b ω ok m = .ok (n', outs)) :
    (replies outs).map (fun u => u.esvByte) = [errorByte m.esvByte] ∧ n'.objects = n.objects ∧ n'.app = n.app := by
  obtain ⟨o, hl⟩ := light_reached h
  obtain ⟨o', hl', _, happ0, happ, hrep⟩ := light_observe hl hobs
  have hr : isRequestByte m.esvByte = true := by rcases he with e | e | e | e <;> rw [e] <;> rfl
  have h60 : m.esvByte ≠ 0x60 := by rcases he with e | e | e | e <;> rw [e] <;> decide
  have h6 : m.esvByte ≠ 0x6E := by rcases he with e | e | e | e <;> rw [e] <;> decide
  have hna : ¬ (Allowed o m ∧ Approved n.handlers o m) := by
    rintro ⟨_, hap⟩
    rcases (light_approved hl (fun e => absurd e h60) h6).mp hap with e | ⟨e, _⟩
    · exact hp e
    · exact h60 e
  obtain ⟨e1, e2⟩ := (hrep hr hd).2 hna
  refine ⟨e1, e2, ?_⟩
  rcases Classical.em (Allowed o m) with ha | ha
  · obtain ⟨copy, hcc, happ⟩ := happ hr hd ha
    rw [happ]
    exact light_quiet _ _ (Or.inr ⟨fun e => h60 ((fromU8_60 _).mp e), fun e => h6 ((fromU8_6E _).mp e)⟩)
  · exact happ0 (fun hx => ha hx.2.2)

/-- C68 fails: a received write-read request (0x6E) changes the reported operating status to any byte, with a
positive response, but not the light. -/
theorem C68_fails_write_read (b : Build) (ω : HashOrder) (ok : Nat → Bool) (n n' : Node Bool) (m : Message)
    (outs : List Out) (h : LightReached b n) (v : UInt8) (hd : m.deoj = 0x029101) (he : m.esvByte = 0x6E)
    (hp : m.properties = []) (hs : m.setProperties = [⟨0x80, [v]⟩]) (hg : m.getProperties = [])
    (hobs : n.observe b ω ok m = .ok (n', outs)) :
    n'.app = n.app ∧ n'.property 0x029101 0x80 = some [v] ∧
    (replies outs).map (fun u => u.esvByte) = [0x7E] := by
  obtain ⟨o, hl⟩ := light_reached h
  obtain ⟨o', hl', hval, happ0, happ, hrep⟩ := light_observe hl hobs
  have hr : isRequestByte m.esvByte = true := by rw [he]; rfl
  have hw : writesOf m = [⟨0x80, [v]⟩] := by unfold writesOf; rw [he, hs]; rfl
  have ha : Allowed o m := allowed_status hl hw (by unfold readsOf; rw [he, hg]; rfl)
  have happr : Approved n.handlers o m := by
    refine Or.inr ⟨nodeHandler, by rw [hl.handlers]; simp, ?_⟩
    intro p hp'; rw [hp] at hp'; simp at hp'
  obtain ⟨copy, hcc, happ⟩ := happ hr hd ha
  refine ⟨by rw [happ, hp]; rfl, ?_, ?_⟩
  · rw [light_property hl', hval 0x80 rfl]
    unfold Values.judgedStep
    rw [if_pos ⟨hr, hd.trans hl.code.symm, ha, happr⟩, hw]
    obtain ⟨p, hp', _⟩ := hl.status
    simp [Values.write, lastWrite, valuesOf, hp']
  · have := (hrep hr hd).1 ⟨ha, happr⟩
    rw [he, show successByte 0x6E = some 0x7E from rfl] at this
    simpa using this

/-- C68 fails: a write with an order and an invalid value is refused as a whole and the reported status stays, but
the light has already followed the order. -/
theorem C68_fails_batch (b : Build) (ω : HashOrder) (ok : Nat → Bool) (n n' : Node Bool) (m : Message)
    (outs : List Out) (h : LightReached b n) (v : UInt8) (hv : v = 0x30 ∨ v = 0x31)
    (hd : m.deoj = 0x029101) (he : m.esvByte = 0x60) (hp : m.properties = [⟨0x80, [v]⟩, ⟨0x80, [0x00]⟩])
    (hobs : n.observe b ω ok m = .ok (n', outs)) :
    n'.app = decide (v = 0x30) ∧ n'.objects = n.objects ∧
    (replies outs).map (fun u => u.esvByte) = [0x50] := by
  obtain ⟨o, hl⟩ := light_reached h
  obtain ⟨o', hl', hval, happ0, happ, hrep⟩ := light_observe hl hobs
  have hr : isRequestByte m.esvByte = true := by rw [he]; rfl
  have hw : writesOf m = m.properties := by unfold writesOf; rw [he]; rfl
  have ha : Allowed o m := by
    obtain ⟨p, hp', h1, _, h3⟩ := hl.status
    refine ⟨?_, by unfold readsOf; rw [he]; simp⟩
    intro w hm
    rw [hw, hp] at hm
    simp only [List.mem_cons, List.not_mem_nil, or_false] at hm
    rcases hm with rfl | rfl <;> exact ⟨p, hp', h1, Or.inr (by rw [h3]; simp)⟩
  have hshort : ∀ q ∈ m.properties, q.code = 0x80 → q.data.length ≤ 1 := by
    intro q hq; exact light_short hl ha q (by rw [hw]; exact hq)
  have hnone : lampOrder ⟨0x80, [0x00]⟩ = none := by decide
  have hsome : (lampOrder ⟨0x80, [v]⟩) = some (decide (v = 0x30)) := by
    rcases hv with rfl | rfl <;> decide
  have hna : ¬ (Allowed o m ∧ Approved n.handlers o m) := by
    rintro ⟨_, hap⟩
    rcases (light_approved hl (fun _ => hshort) (by rw [he]; decide)).mp hap with e | ⟨_, e⟩
    · rw [hp] at e; simp at e
    · have := e ⟨0x80, [0x00]⟩ (by rw [hp]; simp)
      rw [hnone] at this; simp at this
  obtain ⟨copy, hcc, happ⟩ := happ hr hd ha
  obtain ⟨e1, e2⟩ := (hrep hr hd).2 hna
  refine ⟨?_, e2, by rw [e1, he]; rfl⟩
  rw [happ, light_orders hcc (Or.inl (esv_60 he)) _ _ hshort, hp]
  simp [hnone, hsome]

/-- C68 fails: a start after which the device is running makes the light report "on" whatever it is; in
particular a light that has just been created is off and reports "on". -/
theorem C68_fails_start (b : Build) (menv uenv : List IfOutcome) (ok : Nat → Bool) (n n' : Node Bool) (r : Bool)
    (outs : List Out) (h : LightReached b n) (hs : n.start menv uenv ok = .ok (r, n', outs))
    (hrun : n'.isRunning = true) :
    n'.app = n.app ∧ n'.property 0x029101 0x80 = some [0x30] ∧ (n.app = false → ¬ LightAgrees n') := by
  obtain ⟨o, hl⟩ := light_reached h
  obtain ⟨up, t, ht, ⟨hu, _, rfl, _⟩ | ⟨_, n₀, hn, _, hn', _⟩⟩ := start_result hs
  · have := (startTransport_running ht).1.mpr hrun
    rw [hu] at this; simp at this
  have hh : n'.handlers = n.handlers := by rw [hn', (announce_frame ok n₀).1, hn]
  have happ : n'.app = n.app := by rw [hn', (announce_frame ok n₀).1, hn]
  have ho : n'.objects = n.objects.map (mapProperties startedProperty) := by
    rw [hn', (announce_frame ok n₀).1, hn]
  have hl' := light_of_objects hl attrs_started hh ho
  have e : n'.property 0x029101 0x80 = some [0x30] := by
    rw [light_property hl']
    obtain ⟨p, hp', _⟩ := hl.status
    simp [valuesOf, mapProperties, hp', startedProperty]
  refine ⟨happ, e, ?_⟩
  intro hf ha
  unfold LightAgrees at ha
  rw [e, happ, hf] at ha
  exact absurd ha (by decide)

theorem received_6E {m : Message} (h : Received m) (he : m.esvByte = 0x6E) : m.properties = [] := by
  obtain ⟨bytes, src, h⟩ := h
  unfold recvLoop at h
  split at h
  · simp at h
  · simp [recvLoop] at h
  · rename_i m' hp
    simp only [recvLoop, Prod.mk.injEq, List.cons.injEq, and_true] at h
    obtain ⟨f, rest, hv, _, _, _, _, _, hesv, _, hb⟩ := Message.parse_sound _ _ _ hp
    subst h
    have he' : f.esv = 0x6E := hesv.symm.trans he
    have hv' := hv.2.2.2
    cases hbody : f.body with
    | single ps =>
      rw [hbody] at hv'
      have := hv'.1
      rw [he'] at this
      exact absurd this (by decide)
    | setGet s g =>
      rw [hbody] at hb
      exact hb.1

/-- C68: no received message makes the light's handler panic: the value given to `Bytes::to_u32` always fits. -/
theorem C68_no_panic (b : Build) (n : Node Bool) (m : Message) (h : LightReached b n) (hm : Received m) :
    ∀ call ∈ callsFor n m, call.1 = 0x029101 → call.2.1 = .WriteRequest ∨ call.2.1 = .WriteReadRequest →
      call.2.2.code = 0x80 → ∃ v, bytesToU32 b call.2.2.data = .ok v := by
  obtain ⟨o, hl⟩ := light_reached h
  intro call hc h1 h2 h3
  unfold callsFor at hc
  split at hc
  rotate_left
  · simp at hc
  rename_i hx
  obtain ⟨hr, pre, dst, post, ht, ha⟩ := hx
  obtain ⟨p, hp, rfl⟩ := List.mem_map.mp hc
  simp only at h1 h2 h3
  have hdst : dst = o := by
    have := targets_iff_find.mp ⟨pre, post, ht⟩
    rw [h1, show (0x029101 : UInt32) = monoLightCode from rfl, hl.found] at this
    exact (Option.some.inj this).symm
  subst hdst
  rcases h2 with h2 | h2
  · have h60 : m.esvByte = 0x60 := (fromU8_60 _).mp h2
    have hw : writesOf m = m.properties := by unfold writesOf; rw [h60]; rfl
    have := light_short hl ha p (by rw [hw]; exact hp) h3
    obtain ⟨v, hv, _⟩ := C11_toU32 b p.data (by omega)
    exact ⟨v, hv⟩
  · rw [received_6E hm ((fromU8_6E _).mp h2)] at hp
    simp at hp

/-! ### Non-vacuity -/

theorem light_exists (b : Build) : ∃ n, LightReached b n ∧ n.app = false ∧ LightAgrees n ∧ n.transport = Manager.new := by
  obtain ⟨db, hdb, _⟩ := C21_builds b .ascending
  obtain ⟨d, n, o, h1, h2, h3, h4⟩ := light_new hdb (uuid := fun _ => List.replicate 16 1) (fun _ => rfl) .ascending
  refine ⟨n, ⟨.ascending, db, _, .ascending, d, n, [], [], hdb, fun _ => rfl, h1, rfl, by simp⟩, h3, ?_, ?_⟩
  · unfold LightAgrees; rw [h4, h3]; rfl
  · obtain ⟨n₀, hn, _, hcodes, _, _, ht, _⟩ := newNode_inv hdb (uuid₁ := List.replicate 16 1)
      (uuid₂ := List.replicate 16 1) rfl rfl (HashOrder.ascending.sub 0) false
    unfold monoLightNew Device.new at h1
    rw [hn] at h1
    obtain ⟨r, hr, h1⟩ := Res.bind_eq_ok.mp h1
    simp only [Res.bind_ok] at hr
    unfold Device.newWithNode at hr
    obtain ⟨ob, _, hr⟩ := Res.bind_eq_ok.mp hr
    obtain ⟨n₁, hn₁, hr⟩ := Res.bind_eq_ok.mp hr
    simp only [Res.pure_eq, Res.ok.injEq, Prod.mk.injEq] at hr h1
    rw [← h1.2, ← hr]
    show n₁.transport = _
    rw [← ht, addObject_frame hn₁]
    rfl

theorem light_receives (n : Node Bool) (m : Message) (hm : Received m) (h5 : m.esvByte ≠ 0x5E) (ω : HashOrder)
    (ok : Nat → Bool) : ∃ n' outs, n.observe .release ω ok m = .ok (n', outs) := by
  cases h : n.observe .release ω ok m with
  | ok r => exact ⟨r.1, r.2, rfl⟩
  | panic => exact absurd ((C57_receive_panics_iff .release ω ok n (fun _ _ => Or.inl rfl) m hm).mp h).1 h5

/-- A datagram for the light. -/
def lightFrame (esv : UInt8) (body : List UInt8) : List UInt8 :=
  [0x10, 0x81, 0, 1, 0x05, 0xFF, 0x01, 0x02, 0x91, 0x01, esv] ++ body

/-- The message a datagram is decoded to. -/
def decoded (d : List UInt8) : Message := ((recvLoop [.datagram d ⟨.v4 1, 3610⟩]).1.head?).getD Message.new

theorem received_decoded (d : List UInt8)
    (h : (recvLoop [.datagram d ⟨.v4 1, 3610⟩]).1.length = 1 ∧ (recvLoop [.datagram d ⟨.v4 1, 3610⟩]).2 = .running) :
    Received (decoded d) := by
  refine ⟨d, ⟨.v4 1, 3610⟩, ?_⟩
  unfold decoded
  generalize recvLoop [.datagram d ⟨.v4 1, 3610⟩] = r at h
  obtain ⟨l, e⟩ := r
  match l, h.1 with
  | [m], _ => exact Prod.ext rfl h.2

/-- Non-vacuity of C68: a light that receives an order, a refused batch, a write-read request and a read. -/
example : ∃ n, LightReached .release n ∧
    (∃ n' outs, Orders (decoded (lightFrame 0x60 [1, 0x80, 1, 0x30])) 0x30 ∧
      n.observe .release .ascending allOk (decoded (lightFrame 0x60 [1, 0x80, 1, 0x30])) = .ok (n', outs) ∧
      n'.app = true) ∧
    (∃ n' outs, n.observe .release .ascending allOk (decoded (lightFrame 0x60 [2, 0x80, 1, 0x30, 0x80, 1, 0])) =
      .ok (n', outs) ∧ n'.app = true ∧ (replies outs).map (fun u => u.esvByte) = [0x50]) ∧
    (∃ n' outs, n.observe .release .ascending allOk (decoded (lightFrame 0x6E [1, 0x80, 1, 0x77, 0])) =
      .ok (n', outs) ∧ n'.app = false ∧ n'.property 0x029101 0x80 = some [0x77]) ∧
    (∃ n' outs, n.observe .release .ascending allOk (decoded (lightFrame 0x62 [1, 0x80, 0])) =
      .ok (n', outs) ∧ (replies outs).map (fun u => u.esvByte) = [0x52]) := by
  obtain ⟨n, hr, happ, _⟩ := light_exists .release
  refine ⟨n, hr, ?_, ?_, ?_, ?_⟩
  · obtain ⟨n', outs, h⟩ := light_receives n (decoded (lightFrame 0x60 [1, 0x80, 1, 0x30]))
      (by exact received_decoded _ (by decide)) (by decide) .ascending allOk
    have ho : Orders (decoded (lightFrame 0x60 [1, 0x80, 1, 0x30])) 0x30 := ⟨by decide, by decide, by decide⟩
    exact ⟨n', outs, ho, h, (C68_switch_partial _ _ _ _ _ _ _ hr _ (Or.inl rfl) ho h).1⟩
  · obtain ⟨n', outs, h⟩ := light_receives n (decoded (lightFrame 0x60 [2, 0x80, 1, 0x30, 0x80, 1, 0]))
      (by exact received_decoded _ (by decide)) (by decide) .ascending allOk
    have := C68_fails_batch _ _ _ _ _ _ _ hr 0x30 (Or.inl rfl) (by decide) (by decide) (by decide) h
    exact ⟨n', outs, h, this.1, this.2.2⟩
  · obtain ⟨n', outs, h⟩ := light_receives n (decoded (lightFrame 0x6E [1, 0x80, 1, 0x77, 0]))
      (by exact received_decoded _ (by decide)) (by decide) .ascending allOk
    have := C68_fails_write_read _ _ _ _ _ _ _ hr 0x77 (by decide) (by decide) (by decide) (by decide) (by decide) h
    exact ⟨n', outs, h, this.1.trans happ, this.2.1⟩
  · obtain ⟨n', outs, h⟩ := light_receives n (decoded (lightFrame 0x62 [1, 0x80, 0]))
      (by exact received_decoded _ (by decide)) (by decide) .ascending allOk
    have := C68_fails_reads _ _ _ _ _ _ _ hr (by decide) (by decide) (by decide) h
    exact ⟨n', outs, h, this.1⟩

/-- Non-vacuity of C68: a light that has just been created and then starts on a host with one interface is off
and reports "on". -/
example : ∃ n r n' outs, LightReached .release n ∧
    n.start [⟨.v4 0x0A000001, fun _ => true, true⟩] [⟨.v4 0x0A000001, fun _ => true, true⟩] allOk =
      .ok (r, n', outs) ∧ n'.isRunning = true ∧ n'.app = false ∧ ¬ LightAgrees n' := by
  obtain ⟨n, hr, happ, _, ht⟩ := light_exists .release
  have hst : Node.startTransport [⟨.v4 0x0A000001, fun _ => true, true⟩] [⟨.v4 0x0A000001, fun _ => true, true⟩]
      n.transport = .ok (true, ⟨[⟨.v4 0x0A000001, [], .running⟩], [⟨.v4 0x0A000001, [], .running⟩]⟩) := by
    rw [ht]; rfl
  have hex : ∃ r n' outs, n.start [⟨.v4 0x0A000001, fun _ => true, true⟩] [⟨.v4 0x0A000001, fun _ => true, true⟩]
      allOk = .ok (r, n', outs) := by
    unfold Node.start
    rw [hst]
    simp only [Res.bind_ok, Bool.not_true, Bool.false_eq_true, if_false, Res.pure_eq]
    split <;> exact ⟨_, _, _, rfl⟩
  obtain ⟨r, n', outs, h⟩ := hex
  have hrun : n'.isRunning = true := by
    obtain ⟨up, t, ht', ⟨hu, _⟩ | ⟨hu, n₀, hn, _, hn', _⟩⟩ := start_result h
    · rw [hst] at ht'
      simp only [Res.ok.injEq, Prod.mk.injEq] at ht'
      rw [hu] at ht'; simp at ht'
    · rw [hn', (announce_frame allOk n₀).1, hn]
      show (n.observers.foldl Manager.addObserver t).isRunning = true
      rw [addObservers_isRunning]
      exact (startTransport_running ht').1.mp hu
  have := C68_fails_start _ _ _ _ _ _ _ _ hr h hrun
  exact ⟨n, r, n', outs, hr, h, hrun, this.1.trans happ, this.2.2 happ⟩

end Uecho
