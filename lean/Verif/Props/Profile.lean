import Verif.Lemmas.Profile
import Verif.Props.Post
/-!
# New devices and the node profile: C20, C22, C54
-/
namespace Uecho
open Spec
variable {S : Type}

/-! ## C22 -/

/-- The five self-node properties. -/
def selfNodeCodes : List UInt8 := [0xD3, 0xD4, 0xD5, 0xD6, 0xD7]

theorem profileData_codes {codes : List UInt32} {k : Nat} {c : UInt8} {d : List UInt8}
    (h : profileData codes k c = some d) : c ∈ selfNodeCodes ∧ isMapCode c = false ∧ c ≠ 0x80 ∧ c ≠ 0x88 := by
  unfold profileData at h
  split at h
  · rename_i hc; subst hc; decide
  · split at h
    · rename_i hc; subst hc; decide
    · split at h
      · rename_i hc; rcases hc with rfl | rfl <;> decide
      · split at h
        · rename_i hc; subst hc; decide
        · simp at h

/-- The node profile object has all self-node properties, none of them is writable, and 0xD6 is readable. -/
def HasSelf (np : Object) : Prop := CodesOk np ∧
  ∀ c ∈ selfNodeCodes, ∃ p, np.properties c = some p ∧ p.writeAttr = .Prohibited ∧
    (c = 0xD6 → p.readAttr ≠ .Prohibited)

theorem hasSelf_congr {np np' : Object} (h : ∀ c, (np'.properties c).map attrsOf = (np.properties c).map attrsOf)
    (hs : HasSelf np) : HasSelf np' := by
  constructor
  · intro c q hq
    have := h c
    rw [hq] at this
    obtain ⟨p, hp, ha⟩ := Option.map_eq_some_iff.mp this.symm
    have hpq : q.code = p.code := by show (attrsOf q).code = (attrsOf p).code; rw [ha]
    rw [hpq]; exact hs.1 c p hp
  intro c hc
  obtain ⟨p, hp, hw, hr⟩ := hs.2 c hc
  have := h c
  rw [hp] at this
  obtain ⟨q, hq, ha⟩ := Option.map_eq_some_iff.mp this
  refine ⟨q, hq, by rw [← hw]; show (attrsOf q).writeAttr = (attrsOf p).writeAttr; rw [ha], ?_⟩
  intro h6
  have : q.readAttr = p.readAttr := by show (attrsOf q).readAttr = (attrsOf p).readAttr; rw [ha]
  rw [this]; exact hr h6

/-- The invariant of C22. -/
structure ProfileInv (n : Node S) : Prop where
  keys : ∀ o ∈ n.objects, KeysOk o
  passive : ∀ h ∈ n.handlers, Passive h
  builtin : ∃ hs, n.handlers = nodeHandler :: hs
  shape : ∃ np ds, n.objects = np :: ds ∧ np.code = profileCode ∧ HasSelf np ∧
    Describes np (n.objects.map Object.code)

theorem mapProperties_code (f : UInt8 → Property → Property) (o : Object) : (mapProperties f o).code = o.code := rfl

theorem profileProperty_code (codes : List UInt32) (k : Nat) (c : UInt8) (p : Property) :
    (profileProperty codes k c p).code = p.code ∧ attrsOf (profileProperty codes k c p) = attrsOf p := by
  unfold profileProperty; split <;> exact ⟨rfl, rfl⟩

theorem mapProperties_keysOk {f : UInt8 → Property → Property} (hf : ∀ c p, (f c p).code = p.code) {o : Object}
    (h : KeysOk o) : KeysOk (mapProperties f o) := by
  intro k p hp
  obtain ⟨q, hq, rfl⟩ := Option.map_eq_some_iff.mp hp
  rw [hf]; exact h k q hq

/-- Recomputing the node profile of a node whose first object is the node profile. -/
theorem updateNodeProfile_eq (b : Build) (n : Node S) {np : Object} {ds : List Object}
    (ho : n.objects = np :: ds) (hc : np.code = profileCode) :
    n.updateNodeProfile b = .ok { n with
      objects := (mapProperties (profileProperty (n.objects.map Object.code) ds.length) np :: ds) } := by
  have hf : findObject n.objects nodeProfileCode = some np := by
    rw [ho]; exact findObject_append (pre := []) (by simp) hc
  unfold Node.updateNodeProfile
  simp only [hf]
  rw [nodeProfileUpdate_eq b np _ (by simp [ho])]
  simp only [Res.bind_ok, Res.pure_eq]
  congr 1
  have hu := updateObject_append (pre := []) (post := ds) (o := np) (c := nodeProfileCode)
    (fun _ => mapProperties (profileProperty (n.objects.map Object.code) ((n.objects.map Object.code).length - 1)) np)
    (by simp) hc
  simp only [List.nil_append] at hu
  rw [ho] at hu ⊢
  rw [hu]
  simp

/-- The properties of the fresh node profile. -/
theorem nodeProfile_hasSelf {uuid₁ uuid₂ : List UInt8} {np : Object}
    (h : SameProps np.properties (standardTable uuid₁ uuid₂ 0x0EF001)) : HasSelf np := by
  refine ⟨(tableOk_object (tableOk_standard _ _ _) h).2, ?_⟩
  have hclass : classOf 0x0EF001 = some Table.class_0EF0 := by
    apply classOf_eq
    · simp [Table.classes]
    · decide +kernel
  have hattr : ∀ c ∈ selfNodeCodes, ∃ p, (standardTable uuid₁ uuid₂ 0x0EF001 c) = some p ∧
      p.writeAttr = .Prohibited ∧ (c = 0xD6 → p.readAttr ≠ .Prohibited) := by
    have hdec : ∀ c ∈ selfNodeCodes, firstDef Table.class_0000 c = none ∧
        ∃ p, firstDef Table.class_0EF0 c = some p ∧ p.writeAttr = .Prohibited ∧
          (c = 0xD6 → p.readAttr ≠ .Prohibited) := by
      have : selfNodeCodes.all (fun c => (firstDef Table.class_0000 c).isNone &&
        decide ((firstDef Table.class_0EF0 c).map (fun p => (p.writeAttr, decide (c = 0xD6 → p.readAttr ≠ .Prohibited))) =
          some (.Prohibited, true))) = true := by
        decide +kernel
      intro c hc
      have := List.all_eq_true.mp this c hc
      simp only [Bool.and_eq_true, decide_eq_true_eq] at this
      obtain ⟨p, hp, hpp⟩ := Option.map_eq_some_iff.mp this.2
      simp only [Prod.mk.injEq, decide_eq_true_eq] at hpp
      exact ⟨by simpa using this.1, p, hp, hpp.1, hpp.2⟩
    intro c hc
    obtain ⟨h1, p, hp, hw, hr⟩ := hdec c hc
    unfold standardTable
    simp only [hclass]
    have ha := Object.imported_attrs uuid₂ c p
    have hw' : (imported uuid₂ c p).writeAttr = p.writeAttr := by
      show (attrsOf (imported uuid₂ c p)).writeAttr = (attrsOf p).writeAttr
      rw [ha]
    have hr' : (imported uuid₂ c p).readAttr = p.readAttr := by
      show (attrsOf (imported uuid₂ c p)).readAttr = (attrsOf p).readAttr
      rw [ha]
    refine ⟨imported uuid₂ c p, ?_, hw'.trans hw, by rw [hr']; exact hr⟩
    unfold importTable
    rw [hp, h1]
    rfl
  intro c hc
  obtain ⟨p, hp, hw, hr⟩ := hattr c hc
  obtain ⟨q, hq, ha, _⟩ := h.symm.some hp
  have hr' : q.readAttr = p.readAttr := by show (attrsOf q).readAttr = (attrsOf p).readAttr; rw [ha]
  exact ⟨q, hq, by rw [← hw]; show (attrsOf q).writeAttr = (attrsOf p).writeAttr; rw [ha],
    by rw [hr']; exact hr⟩

theorem describes_update {np : Object} (hs : HasSelf np) (codes : List UInt32) {k : Nat}
    (hk : k = codes.length - 1) : Describes (mapProperties (profileProperty codes k) np) codes := by
  subst hk
  intro c d hd
  obtain ⟨p, hp, _⟩ := hs.2 c (profileData_codes hd).1
  refine ⟨profileProperty codes (codes.length - 1) c p, ?_, ?_⟩
  · show (np.properties c).map _ = _
    rw [hp]; rfl
  · unfold profileProperty; rw [hd]

theorem hasSelf_mapProperties {np : Object} {f : UInt8 → Property → Property}
    (hf : ∀ c p, attrsOf (f c p) = attrsOf p) (h : HasSelf np) : HasSelf (mapProperties f np) := by
  apply hasSelf_congr _ h
  intro c
  show ((np.properties c).map (f c)).map attrsOf = _
  rw [Option.map_map]
  congr 1
  funext p; exact hf c p

/-- A new node satisfies the invariant and has only the node profile. -/
theorem newNode_inv {b : Build} {ω₀ : HashOrder} {db : Database} (hdb : standardDb b ω₀ = .ok db)
    {uuid₁ uuid₂ : List UInt8} (hu₁ : uuid₁.length = 16) (hu₂ : uuid₂.length = 16) (ω : HashOrder) (app : S) :
    ∃ n, Node.new b db uuid₁ uuid₂ ω app = .ok n ∧ ProfileInv n ∧ n.objects.map Object.code = [profileCode] ∧
      n.observers = [] ∧ n.handlers = [nodeHandler] ∧ n.transport = Manager.new ∧ n.post = none ∧ n.lastTid = 0 ∧
      n.app = app ∧ ∃ np, n.objects = [np] ∧
        ∀ c, (np.properties c).map attrsOf = (standardTable uuid₁ uuid₂ 0x0EF001 c).map attrsOf := by
  obtain ⟨np, h1, h2, h3, h4, h5⟩ := deviceObject_spec hdb hu₁ hu₂ ω nodeProfileCode
  have h1' : nodeProfileNew b db uuid₁ uuid₂ ω = .ok np := h1
  have hc : np.code = profileCode := UInt32.toNat.inj (by rw [h2]; rfl)
  have hs : HasSelf np := nodeProfile_hasSelf h3
  let n₀ : Node S := ⟨Manager.new, [np], 0, none, 0, [], [], app⟩
  have hu := updateNodeProfile_eq b n₀ (np := np) (ds := []) rfl hc
  refine ⟨⟨Manager.new, [mapProperties (profileProperty (n₀.objects.map Object.code) 0) np], 0, none, 0,
    [nodeHandler], [], app⟩, ?_, ⟨?_, ?_, ⟨[], rfl⟩, ?_⟩, ?_, rfl, rfl, rfl, rfl, rfl, rfl, _, rfl, ?_⟩
  · unfold Node.new
    rw [h1']
    simp only [Res.bind_ok, Node.addObject, List.nil_append]
    show Res.bind (n₀.updateNodeProfile b) _ = _
    rw [hu]
    rfl
  · intro o ho
    simp only [List.mem_singleton] at ho
    rw [ho]
    exact mapProperties_keysOk (fun c p => (profileProperty_code _ _ c p).1) h4
  · intro h hm
    simp only [List.mem_singleton] at hm
    rw [hm]; exact nodeHandler_passive
  · refine ⟨_, [], rfl, hc, hasSelf_mapProperties (fun c p => (profileProperty_code _ _ c p).2) hs, ?_⟩
    exact describes_update hs _ rfl
  · simp [mapProperties_code, hc]
  · intro c
    show ((np.properties c).map _).map attrsOf = _
    rw [Option.map_map]
    have : attrsOf ∘ profileProperty (n₀.objects.map Object.code) 0 c = attrsOf :=
      funext (fun p => (profileProperty_code _ _ c p).2)
    rw [this]
    exact (h3 c).2

/-- Operations that do not by-pass the library: objects whose properties are filed under their codes,
handlers that do not modify the object themselves, no direct write into the node profile, and objects changed in place
keep their code. -/
def Spec.ProfileSafe : Op S → Prop
  | .addObject o => KeysOk o
  | .addHandler h => Passive h
  | .setProperty oc _ _ => oc ≠ profileCode
  | .edit oc f => oc ≠ profileCode ∧ ∀ o, KeysOk o → o.code = oc → KeysOk (f o) ∧ (f o).code = oc
  | _ => True

/-- The codes of the objects added by a history, in order. -/
def Spec.addedCodes (ops : List (Op S)) : List UInt32 :=
  ops.filterMap (fun op => match op with | .addObject o => some o.code | _ => none)

theorem map_code_eq_of_getElem {l l' : List Object} (hl : l'.length = l.length)
    (h : ∀ i (h₁ : i < l.length) (h₂ : i < l'.length), l'[i].code = l[i].code) :
    l'.map Object.code = l.map Object.code := by
  apply List.ext_getElem
  · simpa using hl
  · intro i h1 h2
    simp only [List.getElem_map]
    exact h i (by simpa using h2) (by simpa using h1)

/-- Replacing data of properties other than the self-node properties of the node profile keeps the
invariant. -/
theorem inv_of_pointwise {n n' : Node S} (hi : ProfileInv n) (hh : n'.handlers = n.handlers)
    (hl : n'.objects.length = n.objects.length)
    (h : ∀ i (h₁ : i < n.objects.length) (h₂ : i < n'.objects.length),
      n'.objects[i].code = n.objects[i].code ∧
      ∀ c, (n'.objects[i].properties c).map attrsOf = (n.objects[i].properties c).map attrsOf ∧
        ∀ p p', i = 0 → c ∈ selfNodeCodes → p.writeAttr = .Prohibited → n.objects[i].properties c = some p →
          n'.objects[i].properties c = some p' → p'.data = p.data) :
    ProfileInv n' ∧ n'.objects.map Object.code = n.objects.map Object.code := by
  have hcodes := map_code_eq_of_getElem hl (fun i h₁ h₂ => (h i h₁ h₂).1)
  refine ⟨⟨?_, by rw [hh]; exact hi.passive, by rw [hh]; exact hi.builtin, ?_⟩, hcodes⟩
  · intro o ho
    obtain ⟨i, hi', rfl⟩ := List.mem_iff_getElem.mp ho
    have hio : i < n.objects.length := hl ▸ hi'
    intro k p hp
    have := ((h i hio hi').2 k).1
    rw [hp] at this
    obtain ⟨q, hq, ha⟩ := Option.map_eq_some_iff.mp this.symm
    have hqk := hi.keys _ (List.getElem_mem hio) k q hq
    rw [← hqk]
    show (attrsOf p).code = (attrsOf q).code
    rw [ha]
  · obtain ⟨np, ds, ho, hc, hs, hd⟩ := hi.shape
    cases ho' : n'.objects with
    | nil => rw [ho', ho] at hl; simp at hl
    | cons np' ds' =>
      have h0 := h 0 (by rw [ho]; simp) (by rw [ho']; simp)
      simp only [ho, ho', List.getElem_cons_zero] at h0
      have hs' : HasSelf np' := hasSelf_congr (fun c => (h0.2 c).1) hs
      refine ⟨np', ds', rfl, h0.1.trans hc, hs', ?_⟩
      rw [← ho', hcodes]
      intro c d hcd
      obtain ⟨p, hp, hpd⟩ := hd c d hcd
      have hself := (profileData_codes hcd).1
      obtain ⟨q, hq, hw, _⟩ := hs.2 c hself
      obtain ⟨p', hp', _⟩ := hs'.2 c hself
      rw [hq] at hp
      simp only [Option.some.injEq] at hp
      subst hp
      exact ⟨p', hp', by rw [← hpd]; exact (h0.2 c).2 q p' trivial hself hw hq hp'⟩

theorem inv_same_objects {n n' : Node S} (hi : ProfileInv n) (ho : n'.objects = n.objects)
    (hh : n'.handlers = n.handlers) : ProfileInv n' ∧ n'.objects.map Object.code = n.objects.map Object.code :=
  ⟨⟨by rw [ho]; exact hi.keys, by rw [hh]; exact hi.passive, by rw [hh]; exact hi.builtin,
    by rw [ho]; exact hi.shape⟩, by rw [ho]⟩

theorem inv_mapProperties {n n' : Node S} (hi : ProfileInv n) {f : UInt8 → Property → Property}
    (hf : ∀ c p, attrsOf (f c p) = attrsOf p) (hself : ∀ c ∈ selfNodeCodes, ∀ p, f c p = p)
    (ho : n'.objects = n.objects.map (mapProperties f)) (hh : n'.handlers = n.handlers) :
    ProfileInv n' ∧ n'.objects.map Object.code = n.objects.map Object.code := by
  apply inv_of_pointwise hi hh (by rw [ho]; simp)
  intro i h₁ h₂
  simp only [ho, List.getElem_map, mapProperties_code, true_and]
  intro c
  constructor
  · show ((n.objects[i].properties c).map (f c)).map attrsOf = _
    rw [Option.map_map]
    congr 1
    funext p; exact hf c p
  · intro p p' _ hc _ hp hp'
    have : (n.objects[i].properties c).map (f c) = some p' := hp'
    rw [hp] at this
    simp only [Option.map_some, Option.some.injEq] at this
    rw [← this, hself c hc]

theorem startedProperty_attrs (c : UInt8) (p : Property) : attrsOf (startedProperty c p) = attrsOf p := by
  unfold startedProperty; split
  · rfl
  · split <;> rfl

theorem stoppedProperty_attrs (c : UInt8) (p : Property) : attrsOf (stoppedProperty c p) = attrsOf p := by
  unfold stoppedProperty; split <;> rfl

theorem started_self : ∀ c ∈ selfNodeCodes, ∀ p, startedProperty c p = p := by
  intro c hc p
  simp only [selfNodeCodes, List.mem_cons, List.not_mem_nil, or_false] at hc
  rcases hc with rfl | rfl | rfl | rfl | rfl <;> rfl

theorem stopped_self : ∀ c ∈ selfNodeCodes, ∀ p, stoppedProperty c p = p := by
  intro c hc p
  simp only [selfNodeCodes, List.mem_cons, List.not_mem_nil, or_false] at hc
  rcases hc with rfl | rfl | rfl | rfl | rfl <;> rfl

theorem updateTid_same (n : Node S) (m : Message) :
    (n.updateTid m).2.objects = n.objects ∧ (n.updateTid m).2.handlers = n.handlers := by
  rw [Node.updateTid_frame]; exact ⟨rfl, rfl⟩

theorem observe_handlers {b : Build} {ω : HashOrder} {ok : Nat → Bool} {n n' : Node S} {msg : Message}
    {outs : List Out} (h : n.observe b ω ok msg = .ok (n', outs)) : n'.handlers = n.handlers := by
  exact (observe_frame h).1

/-- Every operation keeps the invariant. -/
theorem step_inv {b : Build} {n n' : Node S} {op : Op S} {outs : List Out} (hi : ProfileInv n)
    (hop : ProfileSafe op) (h : n.step b op = .ok (n', outs)) :
    ProfileInv n' ∧ n'.objects.map Object.code = n.objects.map Object.code ++ addedCodes [op] := by
  have lift : ∀ {m : Node S}, addedCodes [op] = [] → m = n' →
      (ProfileInv m ∧ m.objects.map Object.code = n.objects.map Object.code) →
      ProfileInv n' ∧ n'.objects.map Object.code = n.objects.map Object.code ++ addedCodes [op] := by
    intro m h1 h2 h3
    subst h2
    rw [h1, List.append_nil]; exact h3
  cases op with
  | addObject o =>
    obtain ⟨r, hr, h⟩ := Res.bind_eq_ok.mp h
    simp only [Res.pure_eq, Res.ok.injEq, Prod.mk.injEq] at h
    obtain ⟨rfl, rfl⟩ := h
    obtain ⟨np, ds, ho, hc, hs, hd⟩ := hi.shape
    let n₁ : Node S := { n with objects := n.objects ++ [o] }
    have hu := updateNodeProfile_eq b n₁ (np := np) (ds := ds ++ [o])
      (show n.objects ++ [o] = _ by rw [ho]; rfl) hc
    have : n₁.updateNodeProfile b = .ok r := hr
    rw [hu] at this
    simp only [Res.ok.injEq] at this
    subst this
    have hcodes : n₁.objects.map Object.code = profileCode :: (ds ++ [o]).map Object.code := by
      show (n.objects ++ [o]).map Object.code = _
      rw [ho]; simp [hc]
    have hobj : (n.objects.map Object.code ++ addedCodes [Op.addObject (S := S) o]) = n₁.objects.map Object.code := by
      show _ = (n.objects ++ [o]).map Object.code
      simp [addedCodes]
    rw [hobj]
    have hres : (mapProperties (profileProperty (n₁.objects.map Object.code) (ds ++ [o]).length) np ::
        (ds ++ [o])).map Object.code = n₁.objects.map Object.code := by
      rw [hcodes]; simp [mapProperties_code, hc]
    refine ⟨⟨?_, hi.passive, hi.builtin, ?_⟩, hres⟩
    · intro x hx
      rcases List.mem_cons.mp hx with rfl | hx
      · exact mapProperties_keysOk (fun c p => (profileProperty_code _ _ c p).1) (hi.keys np (by rw [ho]; simp))
      · rcases List.mem_append.mp hx with hx | hx
        · exact hi.keys x (by rw [ho]; simp [hx])
        · rw [List.mem_singleton.mp hx]; exact hop
    · refine ⟨_, _, rfl, hc, hasSelf_mapProperties (fun c p => (profileProperty_code _ _ c p).2) hs, ?_⟩
      show Describes _ ((mapProperties (profileProperty (n₁.objects.map Object.code) (ds ++ [o]).length) np ::
        (ds ++ [o])).map Object.code)
      rw [hres]
      refine describes_update hs _ ?_
      rw [hcodes]; simp
  | addHandler hd =>
    simp only [Node.step, Res.ok.injEq, Prod.mk.injEq] at h
    obtain ⟨hs, hhs⟩ := hi.builtin
    refine lift rfl h.1 ⟨⟨hi.keys, ?_, ⟨hs ++ [hd], by show n.handlers ++ [hd] = _; rw [hhs]; rfl⟩, hi.shape⟩, rfl⟩
    intro x hx
    rcases List.mem_append.mp hx with hx | hx
    · exact hi.passive x hx
    · rw [List.mem_singleton.mp hx]; exact hop
  | addObserver o =>
    simp only [Node.step, Res.ok.injEq, Prod.mk.injEq] at h
    exact lift rfl h.1 (inv_same_objects hi rfl rfl)
  | send to msg ok =>
    simp only [Node.step, Node.sendMessage, Res.ok.injEq, Prod.mk.injEq] at h
    exact lift rfl h.1 (inv_same_objects hi (updateTid_same n msg).1 (updateTid_same n msg).2)
  | post to msg ok =>
    simp only [Node.step, Node.postMessage, Res.ok.injEq, Prod.mk.injEq] at h
    exact lift rfl h.1 (inv_same_objects hi (updateTid_same n msg).1 (updateTid_same n msg).2)
  | notify msg ok =>
    simp only [Node.step, Node.notify, Res.ok.injEq, Prod.mk.injEq] at h
    exact lift rfl h.1 (inv_same_objects hi (updateTid_same n msg).1 (updateTid_same n msg).2)
  | announceProperty obj prop ok =>
    simp only [Node.step, Node.announceProperty, Node.notify, Res.ok.injEq, Prod.mk.injEq] at h
    exact lift rfl h.1 (inv_same_objects hi (updateTid_same n _).1 (updateTid_same n _).2)
  | announce ok =>
    simp only [Node.step, Res.ok.injEq, Prod.mk.injEq] at h
    refine lift rfl h.1 (inv_same_objects hi ?_ ?_)
    · rw [(announce_frame ok n).1]
    · rw [(announce_frame ok n).1]
  | start menv uenv ok =>
    obtain ⟨r, hr, h⟩ := Res.bind_eq_ok.mp h
    simp only [Res.pure_eq, Res.ok.injEq, Prod.mk.injEq] at h
    obtain ⟨up, m, _, ⟨_, _, hn', _⟩ | ⟨_, n₀, hn, _, hn', _⟩⟩ := start_result hr
    · exact lift rfl h.1 (inv_same_objects hi (by rw [hn']) (by rw [hn']))
    · refine lift rfl h.1 (inv_mapProperties hi startedProperty_attrs started_self ?_ ?_)
      · rw [hn', (announce_frame ok n₀).1, hn]
      · rw [hn', (announce_frame ok n₀).1, hn]
  | stop =>
    obtain ⟨r, hr, h⟩ := Res.bind_eq_ok.mp h
    simp only [Res.pure_eq, Res.ok.injEq, Prod.mk.injEq] at h
    by_cases ht : ThreadsOk n.transport
    · rw [(C42_stop n).1 ht] at hr
      simp only [Res.ok.injEq] at hr
      subst hr
      exact lift rfl h.1 (inv_mapProperties hi stoppedProperty_attrs stopped_self rfl rfl)
    · rw [(C42_stop n).2 ht] at hr
      simp at hr
  | setProperty oc c d =>
    simp only [Node.step, Res.ok.injEq, Prod.mk.injEq] at h
    refine lift rfl h.1 ?_
    unfold Node.setProperty
    cases hf : findObject n.objects oc with
    | none => exact inv_same_objects hi rfl rfl
    | some o =>
      simp only []
      cases hp : o.findProperty c with
      | none => exact inv_same_objects hi rfl rfl
      | some p =>
        obtain ⟨pre, post, hsplit, hpre, hcode⟩ := findObject_split hf
        obtain ⟨np, ds, ho, hc, hs, hd⟩ := hi.shape
        simp only []
        have hupd := updateObject_append (post := post) (fun o => (o.setPropertyData c d).2) hpre hcode
        rw [← hsplit] at hupd
        rw [hupd]
        refine inv_of_pointwise (n' := { n with objects := (pre ++ (o.setPropertyData c d).2 :: post) })
          hi rfl (by simp [hsplit]) ?_
        intro i h₁ h₂
        have hsame : ∀ (x y : Object), x = y → (y.code = x.code ∧
            ∀ c, (y.properties c).map attrsOf = (x.properties c).map attrsOf ∧
              ∀ p p', i = 0 → c ∈ selfNodeCodes → p.writeAttr = .Prohibited → x.properties c = some p →
                y.properties c = some p' → p'.data = p.data) := by
          rintro x _ rfl
          refine ⟨rfl, fun c => ⟨rfl, ?_⟩⟩
          intro p p' _ _ _ h1 h2
          rw [h1] at h2
          simp only [Option.some.injEq] at h2
          rw [h2]
        simp only [hsplit]
        by_cases hlt : i < pre.length
        · apply hsame
          rw [List.getElem_append_left hlt, List.getElem_append_left hlt]
        · by_cases heq : i = pre.length
          · subst heq
            have hne : pre ≠ [] := by
              intro hnil
              subst hnil
              rw [List.nil_append, ho] at hsplit
              have : np = o := (List.cons_eq_cons.mp hsplit).1
              exact hop (by rw [← hcode, ← this]; exact hc)
            simp only [List.getElem_append_right (Nat.le_refl _), Nat.sub_self, List.getElem_cons_zero]
            refine ⟨Node.code_of_sameId (Object.setPropertyData_sameId o c d), fun c' => ⟨?_, ?_⟩⟩
            · rw [Object.setPropertyData_props]
              split
              · rename_i hcc; rw [hcc, Option.map_map]; rfl
              · rfl
            · intro p p' h0
              exact absurd (List.length_eq_zero_iff.mp h0) hne
          · apply hsame
            have : pre.length < i := by omega
            rw [List.getElem_append_right (by omega), List.getElem_append_right (by omega)]
            obtain ⟨j, hj⟩ : ∃ j, i - pre.length = j + 1 := ⟨i - pre.length - 1, by omega⟩
            simp only [hj, List.getElem_cons_succ]
  | edit oc f =>
    simp only [Node.step, Res.ok.injEq, Prod.mk.injEq] at h
    refine lift rfl h.1 ?_
    obtain ⟨np, ds, ho, hc, hs, hd⟩ := hi.shape
    have hne : (np.code == oc) = false := by
      rw [beq_eq_false_iff_ne]; intro e; exact hop.1 (by rw [← e]; exact hc)
    have hupd : updateObject oc f n.objects = np :: updateObject oc f ds := by
      rw [ho]; simp only [updateObject, hne, Bool.false_eq_true, if_false]
    have hk : ∀ o ∈ ds, KeysOk o := fun o h => hi.keys o (by rw [ho]; simp [h])
    obtain ⟨hk', hcd⟩ : (∀ o ∈ updateObject oc f ds, KeysOk o) ∧
        (updateObject oc f ds).map Object.code = ds.map Object.code := by
      clear hd ho hupd
      induction ds with
      | nil => exact ⟨by simp [updateObject], rfl⟩
      | cons d ds ih =>
        have hd := hk d (by simp)
        obtain ⟨i1, i2⟩ := ih (fun o h => hk o (by simp [h]))
        by_cases he : d.code = oc
        · have := hop.2 d hd he
          simp only [updateObject, he, beq_self_eq_true, if_true, List.map_cons, this.2, and_true]
          intro o hm
          rcases List.mem_cons.mp hm with rfl | hm
          · exact this.1
          · exact hk o (by simp [hm])
        · simp only [updateObject, beq_eq_false_iff_ne.mpr he, Bool.false_eq_true, if_false, List.map_cons, i2, and_true]
          intro o hm
          rcases List.mem_cons.mp hm with rfl | hm
          · exact hd
          · exact i1 o hm
    have hcodes : (np :: updateObject oc f ds).map Object.code = (np :: ds).map Object.code := by
      simp [hcd]
    refine ⟨⟨?_, hi.passive, hi.builtin, ?_⟩, ?_⟩
    · intro o hm
      have hm : o ∈ updateObject oc f n.objects := hm
      rw [hupd] at hm
      rcases List.mem_cons.mp hm with rfl | hm
      · exact hi.keys _ (by rw [ho]; simp)
      · exact hk' o hm
    · refine ⟨np, updateObject oc f ds, hupd, hc, hs, ?_⟩
      show Describes np ((updateObject oc f n.objects).map Object.code)
      rw [hupd, hcodes, ← ho]; exact hd
    · show (updateObject oc f n.objects).map Object.code = _
      rw [hupd, hcodes, ← ho]
  | receive msg free ω ok =>
    cases free with
    | false =>
      have : n = n' ∧ [] = outs := by simpa [Node.step, Node.observeTry] using h
      exact lift rfl this.1 (inv_same_objects hi rfl rfl)
    | true =>
      have h' : n.observe b ω ok msg = .ok (n', outs) := h
      have hw := C32_no_forbidden_write b ω ok n n' msg outs hi.keys hi.passive h'
      refine lift rfl rfl (inv_of_pointwise hi (observe_handlers h') hw.1 ?_)
      intro i h₁ h₂
      refine ⟨(hw.2 i h₁ h₂).1, fun c => ⟨((hw.2 i h₁ h₂).2 c).1, ?_⟩⟩
      intro p p' _ hc hwp hp hp'
      apply Classical.byContradiction
      intro hne
      have hm : isMapCode c = false := by
        simp only [selfNodeCodes, List.mem_cons, List.not_mem_nil, or_false] at hc
        rcases hc with rfl | rfl | rfl | rfl | rfl <;> rfl
      exact (((hw.2 i h₁ h₂).2 c).2 p p' hp hp' hm hne).1 hwp

theorem run_inv {b : Build} {n n' : Node S} {ops : List (Op S)} {outs : List Out} (hi : ProfileInv n)
    (hop : ∀ op ∈ ops, ProfileSafe op) (h : n.run b ops = .ok (n', outs)) :
    ProfileInv n' ∧ n'.objects.map Object.code = n.objects.map Object.code ++ addedCodes ops := by
  induction ops generalizing n outs with
  | nil =>
    simp only [Node.run, Res.ok.injEq, Prod.mk.injEq] at h
    rw [← h.1]
    exact ⟨hi, by simp [addedCodes]⟩
  | cons op ops ih =>
    obtain ⟨r, hr, h⟩ := Res.bind_eq_ok.mp h
    obtain ⟨r', hr', h⟩ := Res.bind_eq_ok.mp h
    simp only [Res.pure_eq, Res.ok.injEq, Prod.mk.injEq] at h
    obtain ⟨h1, h2⟩ := step_inv hi (hop op (by simp)) (n' := r.1) (outs := r.2) hr
    obtain ⟨h3, h4⟩ := ih h1 (fun o ho => hop o (by simp [ho])) (outs := r'.2) (by rw [← h.1]; exact hr')
    refine ⟨h3, ?_⟩
    rw [h4, h2, List.append_assoc]
    congr 1
    cases op <;> rfl

end Uecho
