import Verif.Spec.Controller
import Verif.Lemmas.Standard
import Verif.Lemmas.Observe
import Verif.Props.Basic
/-!
# The controller's list of remote nodes
-/
namespace Uecho
open Spec
variable {S : Type}

/-! ## Specification lemmas -/

theorem lastOccurrences_mem (l : List SocketAddr) (a : SocketAddr) : a ∈ lastOccurrences l ↔ a ∈ l := by
  induction l with
  | nil => simp [lastOccurrences]
  | cons x l ih =>
    unfold lastOccurrences
    split
    · rw [ih]
      rename_i hx
      constructor
      · intro h; simp [h]
      · intro h
        rcases List.mem_cons.mp h with rfl | h
        · exact hx
        · exact h
    · simp [ih]

theorem lastOccurrences_nodup (l : List SocketAddr) : (lastOccurrences l).Nodup := by
  induction l with
  | nil => simp [lastOccurrences]
  | cons x l ih =>
    unfold lastOccurrences
    split
    · exact ih
    · rename_i hx
      rw [List.nodup_cons]
      exact ⟨by rw [lastOccurrences_mem]; exact hx, ih⟩

theorem lastOccurrences_append (l : List SocketAddr) (a : SocketAddr) :
    lastOccurrences (l ++ [a]) = (lastOccurrences l).filter (fun x => x ≠ a) ++ [a] := by
  induction l with
  | nil => simp [lastOccurrences]
  | cons x l ih =>
    simp only [List.cons_append]
    rw [lastOccurrences, lastOccurrences]
    by_cases hxl : x ∈ l
    · rw [if_pos (by simp [hxl]), if_pos hxl, ih]
    · rw [if_neg hxl]
      by_cases hxa : x = a
      · subst hxa
        rw [if_pos (by simp), ih]
        simp
      · rw [if_neg (by simp [hxl, hxa]), ih]
        simp [hxa]

theorem knownNodes_append (ms : List Message) (m : Message) :
    knownNodes (ms ++ [m]) =
      (knownNodes ms).filter (fun e => e.1 ≠ m.sender) ++ [(m.sender, announcedCodes m ++ [0x0EF001])] := by
  unfold knownNodes
  rw [List.map_append, List.map_cons, List.map_nil, lastOccurrences_append, List.filterMap_append]
  congr 1
  · rw [List.filter_filterMap, List.filterMap_filter]
    congr 1
    funext a
    by_cases ha : a = m.sender
    · subst ha
      simp only [ne_eq, not_true_eq_false, decide_false, Bool.false_eq_true, if_false]
      cases (ms.filter (fun x => decide (x.sender = m.sender))).getLast? with
      | none => rfl
      | some x => rw [Option.map_some, Option.filter_some_neg (by simp)]
    · have hf : (ms ++ [m]).filter (fun x => decide (x.sender = a)) = ms.filter (fun x => decide (x.sender = a)) := by
        rw [List.filter_append]
        simp [Ne.symm ha]
      simp only [hf, ne_eq, ha, not_false_eq_true, decide_true, if_true]
      cases (ms.filter (fun x => decide (x.sender = a))).getLast? with
      | none => rfl
      | some x => rw [Option.map_some, Option.filter_some_pos (by simp [ha])]
  · simp [List.filter_append]

theorem knownNodes_addrs (ms : List Message) :
    (knownNodes ms).map (fun e => e.1) = lastOccurrences (ms.map (fun m => m.sender)) := by
  unfold knownNodes
  have key : ∀ l : List SocketAddr, (∀ a ∈ l, a ∈ ms.map (fun m => m.sender)) →
      (l.filterMap (fun a => ((ms.filter (fun m => m.sender = a)).getLast?).map
        (fun m => (a, announcedCodes m ++ [0x0EF001])))).map (fun e => e.1) = l := by
    intro l
    induction l with
    | nil => intro _; rfl
    | cons a l ih =>
      intro h
      obtain ⟨m, hm, rfl⟩ := List.mem_map.mp (h a (by simp))
      have hne : ms.filter (fun x => decide (x.sender = m.sender)) ≠ [] := by
        intro h0
        have : m ∈ ms.filter (fun x => decide (x.sender = m.sender)) := List.mem_filter.mpr ⟨hm, by simp⟩
        rw [h0] at this; simp at this
      rw [List.filterMap_cons]
      rw [List.getLast?_eq_some_getLast hne]
      simp only [Option.map_some, List.map_cons]
      rw [ih (fun x hx => h x (by simp [hx]))]
  exact key _ (fun a ha => (lastOccurrences_mem _ _).mp ha)

/-! ## Parsing -/

theorem isProfileMessage_iff (m : Message) : m.isNodeProfileMessage = true ↔ IsProfileMessage m := by
  unfold Message.isNodeProfileMessage IsProfileMessage
  have h3 : m.esv = .Notification ↔ m.esvByte = 0x73 := by
    unfold Message.esv; generalize m.esvByte = e; revert e; decide +kernel
  have h2 : m.esv = .ReadResponse ↔ m.esvByte = 0x72 := by
    unfold Message.esv; generalize m.esvByte = e; revert e; decide +kernel
  have hp : nodeProfileCode = 0x0EF001 := rfl
  have hq : nodeProfileReadOnlyCode = 0x0EF002 := rfl
  rw [hp, hq]
  by_cases a : m.esvByte = 0x73 <;> by_cases b : m.esvByte = 0x72 <;>
    by_cases c : m.deoj = 0x0EF001 <;> by_cases d : m.deoj = 0x0EF002 <;> simp [h2, h3, a, b, c, d]

theorem parseObjectCodes_eq (b : Build) (l : List UInt8) :
    ∃ cs, parseObjectCodes b l = .ok cs ∧ cs.map UInt32.toNat = objectCodes l := by
  induction l using objectCodes.induct with
  | case1 x y z rest ih =>
    obtain ⟨cs, h1, h2⟩ := ih
    obtain ⟨v, hv, hvn⟩ := C11_toU32 b [x, y, z] (by simp)
    refine ⟨v :: cs, ?_, ?_⟩
    · simp only [parseObjectCodes, hv, Res.bind_ok, h1, Res.pure_eq]
    · simp only [List.map_cons, objectCodes, h2, hvn]
  | case2 l h =>
    have : parseObjectCodes b l = .ok [] ∧ objectCodes l = [] := by
      match l, h with
      | [], _ => exact ⟨rfl, rfl⟩
      | [_], _ => exact ⟨rfl, rfl⟩
      | [_, _], _ => exact ⟨rfl, rfl⟩
      | x :: y :: z :: r, h => exact absurd rfl (h x y z r)
    exact ⟨[], this.1, by rw [this.2]; rfl⟩

theorem parseInstanceList_eq (b : Build) (p : WProperty) :
    ∃ cs, parseInstanceList b p = .ok cs ∧ cs.map UInt32.toNat = listedCodes p := by
  unfold parseInstanceList listedCodes
  by_cases hc : p.code = 0xD6
  · rw [if_neg (by simp [hc])]
    cases hd : p.data with
    | nil => exact ⟨[], rfl, rfl⟩
    | cons k rest =>
      simp only [List.length_cons]
      by_cases hl : 3 * k.toNat ≤ rest.length
      · rw [if_neg (by omega), if_pos ⟨hc, hl⟩]
        exact parseObjectCodes_eq b rest
      · rw [if_pos (by omega), if_neg (fun h => hl h.2)]
        exact ⟨[], rfl, rfl⟩
  · rw [if_pos hc]
    refine ⟨[], rfl, ?_⟩
    cases p.data with
    | nil => rfl
    | cons k rest => simp [hc]

theorem nodeProfileObjectCodes_eq (b : Build) (ps : List WProperty) :
    ∃ cs, nodeProfileObjectCodes b ps = .ok cs ∧ cs.map UInt32.toNat = ps.flatMap listedCodes := by
  induction ps with
  | nil => exact ⟨[], rfl, rfl⟩
  | cons p ps ih =>
    obtain ⟨cs, h1, h2⟩ := ih
    obtain ⟨cs', h3, h4⟩ := parseInstanceList_eq b p
    refine ⟨cs' ++ cs, ?_, ?_⟩
    · simp only [nodeProfileObjectCodes, h3, Res.bind_ok, h1, Res.pure_eq]
    · rw [List.map_append, h4, h2, List.flatMap_cons]

theorem objectCodes_lt (l : List UInt8) : ∀ c ∈ objectCodes l, c < 2 ^ 24 := by
  induction l using objectCodes.induct with
  | case1 x y z rest ih =>
    intro c hc
    rw [objectCodes] at hc
    rcases List.mem_cons.mp hc with rfl | hc
    · have := x.toNat_lt; have := y.toNat_lt; have := z.toNat_lt
      simp only [beVal, List.foldl_cons, List.foldl_nil]
      omega
    · exact ih c hc
  | case2 l h =>
    intro c hc
    have : objectCodes l = [] := by
      match l, h with
      | [], _ => rfl
      | [_], _ => rfl
      | [_, _], _ => rfl
      | x :: y :: z :: r, h => exact absurd rfl (h x y z r)
    rw [this] at hc; simp at hc

theorem listedCodes_lt (p : WProperty) : ∀ c ∈ listedCodes p, c < 2 ^ 24 := by
  unfold listedCodes
  cases p.data with
  | nil => simp
  | cons k rest =>
    simp only []
    split
    · exact objectCodes_lt rest
    · simp

/-! ## Standard objects of a remote node -/

/-- An object with the standard properties of its code. -/
def StdObject (o : Object) : Prop := ∃ u₁ u₂, u₁.length = 16 ∧ u₂.length = 16 ∧
  SameProps o.properties (standardTable u₁ u₂ o.code.toNat)

theorem StdObject.ok {o : Object} (h : StdObject o) : KeysOk o ∧ CodesOk o := by
  obtain ⟨u₁, u₂, _, _, h⟩ := h
  exact tableOk_object (tableOk_standard _ _ _) h

/-- The imports of the controller turn a bare object into the standard object of its code. -/
theorem import_remote {b : Build} {ω₀ : HashOrder} {db : Database} (hdb : standardDb b ω₀ = .ok db)
    (ω : HashOrder) (uuid : Nat → List UInt8) (hu : ∀ i, (uuid i).length = 16) (objs : List Object)
    (hempty : ∀ o ∈ objs, o.properties = fun _ => none) :
    ∃ objs', importRemoteObjects b db ω uuid objs = .ok objs' ∧
      objs'.map Object.code = objs.map Object.code ∧ ∀ o ∈ objs', StdObject o := by
  induction objs generalizing ω uuid with
  | nil => exact ⟨[], rfl, rfl, by simp⟩
  | cons o os ih =>
    have he := hempty o (by simp)
    have h0 : SameProps o.properties (fun _ => none) := by rw [he]; exact Spec.SameProps.refl _
    have hc0 : CodesOk o := fun k p hp => by rw [he] at hp; simp at hp
    obtain ⟨r₁, h1, h1c, _, h1p⟩ := import_standard hdb (hu 0) (ω.sub 0) _ hc0 superObjectCode h0
    have hsup : classOf superObjectCode.toNat = some Table.class_0000 :=
      classOf_eq class_0000_mem (by decide +kernel)
    rw [hsup] at h1p
    simp only [] at h1p
    have hb : TableOk (importTable (uuid 0) (firstDef Table.class_0000) (fun _ => none)) :=
      tableOk_import (tableOk_firstDef class_0000_mem) (fun _ _ h => by simp at h)
    obtain ⟨r₂, h2, h2c, _, h2p⟩ := import_standard hdb (hu 1) (ω.sub 1) _ (tableOk_object hb h1p).2 r₁.2.code h1p
    have hcode : r₂.2.code = o.code := code_of_codes (h2c.trans h1c)
    have hcode₁ : r₁.2.code = o.code := code_of_codes h1c
    rw [hcode₁] at h2p
    have hsame : SameProps r₂.2.properties (standardTable (uuid 0) (uuid 1) o.code.toNat) := by
      unfold standardTable
      cases hc : classOf o.code.toNat with
      | none => rw [hc] at h2p; exact h2p
      | some d => rw [hc] at h2p; exact h2p
    obtain ⟨os', h3, h4, h5⟩ := ih (ω.sub 2) (fun i => uuid (i + 2)) (fun i => hu _) (fun o ho => hempty o (by simp [ho]))
    refine ⟨r₂.2 :: os', ?_, ?_, ?_⟩
    · simp only [importRemoteObjects, h1, Res.bind_ok, h2, h3, Res.pure_eq]
    · rw [List.map_cons, List.map_cons, h4, hcode]
    · intro x hx
      rcases List.mem_cons.mp hx with rfl | hx
      · refine ⟨uuid 0, uuid 1, hu 0, hu 1, ?_⟩
        rw [hcode]; exact hsame
      · exact h5 x hx

theorem fromMessage_eq (b : Build) {msg : Message} (hm : IsProfileMessage msg) :
    ∃ r, RemoteNode.fromMessage b msg = .ok r ∧ r.addr = msg.sender ∧
      r.objects.map (fun o => o.code.toNat) = announcedCodes msg ∧
      ∀ o ∈ r.objects, o.properties = fun _ => none := by
  obtain ⟨cs, h1, h2⟩ := nodeProfileObjectCodes_eq b msg.properties
  have key : ∀ (cs : List UInt32) (r : RemoteNode),
      (cs.foldl (fun r c => r.addObject (Object.fromCode c)) r) = ⟨r.addr, r.objects ++ cs.map Object.fromCode⟩ := by
    intro cs
    induction cs with
    | nil => intro r; simp
    | cons c cs ih => intro r; rw [List.foldl_cons, ih]; simp [RemoteNode.addObject]
  refine ⟨⟨msg.sender, cs.map Object.fromCode⟩, ?_, rfl, ?_, ?_⟩
  · unfold RemoteNode.fromMessage RemoteNode.parse
    rw [(isProfileMessage_iff msg).mpr hm]
    simp only [Bool.not_true, Bool.false_eq_true, if_false, h1, Res.bind_ok, Res.pure_eq, key, List.nil_append]
  · rw [List.map_map]
    have hlt : ∀ c ∈ cs, c.toNat < 2 ^ 24 := by
      intro c hc
      have : c.toNat ∈ msg.properties.flatMap listedCodes := by rw [← h2]; exact List.mem_map_of_mem hc
      obtain ⟨p, _, hp⟩ := List.mem_flatMap.mp this
      exact listedCodes_lt p _ hp
    unfold announcedCodes
    rw [← h2]
    apply List.map_congr_left
    intro c hc
    have := (C14_code_setCode Object.new c).1
    show (Object.new.setCode c).code.toNat = _
    rw [this]
    have := hlt c hc
    omega
  · intro o ho
    obtain ⟨c, _, rfl⟩ := List.mem_map.mp ho
    rfl

/-- What one profile message does to the controller's list. -/
theorem observeController_profile {b : Build} {ω₀ : HashOrder} {db : Database} (hdb : standardDb b ω₀ = .ok db)
    (ω : HashOrder) (uuid : Nat → List UInt8) (hu : ∀ i, (uuid i).length = 16) (remotes : List RemoteNode)
    {msg : Message} (hm : IsProfileMessage msg) :
    ∃ r, observeController b db ω uuid true remotes msg = .ok (replaceRemoteNode remotes r) ∧
      entry r = (msg.sender, announcedCodes msg ++ [0x0EF001]) ∧ ∀ o ∈ r.objects, StdObject o := by
  obtain ⟨r, h1, h2, h3, h4⟩ := fromMessage_eq b hm
  obtain ⟨objs, h5, h6, h7⟩ := import_remote hdb (ω.sub 0) (fun i => uuid (i + 2)) (fun i => hu _) r.objects h4
  obtain ⟨np, h8, h9, h10, _⟩ := deviceObject_spec hdb (hu 0) (hu 1) (ω.sub 1) nodeProfileCode
  have h8' : nodeProfileNew b db (uuid 0) (uuid 1) (ω.sub 1) = .ok np := h8
  have hnp : np.code.toNat = 0x0EF001 := by rw [h9]; rfl
  refine ⟨({ r with objects := objs }).addObject np, ?_, ?_, ?_⟩
  · unfold observeController
    rw [(isProfileMessage_iff msg).mpr hm]
    simp only [Bool.not_true, Bool.false_eq_true, if_false, h1, Res.bind_ok, h5, h8', Res.pure_eq]
  · unfold entry RemoteNode.addObject
    simp only [h2, List.map_append, List.map_cons, List.map_nil, hnp]
    have : objs.map (fun o => o.code.toNat) = r.objects.map (fun o => o.code.toNat) := by
      have := congrArg (List.map UInt32.toNat) h6
      rwa [List.map_map, List.map_map] at this
    rw [this, h3]
  · intro o ho
    rcases List.mem_append.mp ho with ho | ho
    · exact h7 o ho
    · rw [List.mem_singleton.mp ho]
      refine ⟨uuid 0, uuid 1, hu 0, hu 1, ?_⟩
      rw [hnp]; exact h10

theorem observeController_other (b : Build) (db : Database) (ω : HashOrder) (uuid : Nat → List UInt8) (free : Bool)
    (remotes : List RemoteNode) {msg : Message} (h : free = false ∨ ¬ IsProfileMessage msg) :
    observeController b db ω uuid free remotes msg = .ok remotes := by
  unfold observeController
  rcases h with rfl | h
  · simp
  · have : msg.isNodeProfileMessage = false := by
      cases hx : msg.isNodeProfileMessage with
      | false => rfl
      | true => exact absurd ((isProfileMessage_iff msg).mp hx) h
    rw [this]
    cases free <;> simp

/-! ## The list -/

theorem replace_entries {l : List RemoteNode} (hn : (l.map RemoteNode.addr).Nodup) (r : RemoteNode) :
    (replaceRemoteNode l r).map entry =
      (l.map entry).filter (fun e => e.1 ≠ (entry r).1) ++ [entry r] := by
  unfold replaceRemoteNode
  rw [List.map_append, List.map_cons, List.map_nil]
  congr 1
  induction l with
  | nil => rfl
  | cons x l ih =>
    simp only [List.map_cons, List.nodup_cons] at hn
    rw [List.map_cons, List.filter_cons, List.eraseP_cons]
    by_cases hx : x.addr = r.addr
    · have h1 : x.eq r = true := by simp [RemoteNode.eq, hx]
      rw [h1]
      simp only [cond_true]
      rw [if_neg (by simp [entry, hx])]
      symm
      rw [List.filter_eq_self]
      intro e he
      obtain ⟨y, hy, rfl⟩ := List.mem_map.mp he
      apply decide_eq_true
      intro h
      exact hn.1 (List.mem_map.mpr ⟨y, hy, h.trans hx.symm⟩)
    · have h1 : x.eq r = false := by simp [RemoteNode.eq, hx]
      rw [h1]
      simp only [cond_false, List.map_cons]
      rw [if_pos (by simp [entry, hx]), ih hn.2]

theorem replace_mem {l : List RemoteNode} {r x : RemoteNode} (h : x ∈ replaceRemoteNode l r) : x ∈ l ∨ x = r := by
  unfold replaceRemoteNode at h
  rcases List.mem_append.mp h with h | h
  · exact Or.inl (List.mem_of_mem_eraseP h)
  · exact Or.inr (List.mem_singleton.mp h)

/-- The invariant of C47. -/
structure KnownInv (remotes : List RemoteNode) (ms : List Message) : Prop where
  entries : remotes.map entry = knownNodes ms
  std : ∀ r ∈ remotes, ∀ o ∈ r.objects, StdObject o

theorem KnownInv.addrs {remotes : List RemoteNode} {ms : List Message} (h : KnownInv remotes ms) :
    remotes.map RemoteNode.addr = lastOccurrences (ms.map (fun m => m.sender)) := by
  rw [← knownNodes_addrs, ← h.entries, List.map_map]; rfl

theorem KnownInv.call {b : Build} {ω₀ : HashOrder} {db : Database} (hdb : standardDb b ω₀ = .ok db)
    {ω : HashOrder} {uuid : Nat → List UInt8} (hu : ∀ i, (uuid i).length = 16) {free : Bool}
    {remotes : List RemoteNode} {ms : List Message} (hi : KnownInv remotes ms) (msg : Message) :
    ∃ remotes', observeController b db ω uuid free remotes msg = .ok remotes' ∧
      KnownInv remotes' (ms ++ (if free = true ∧ IsProfileMessage msg then [msg] else [])) := by
  by_cases h : free = true ∧ IsProfileMessage msg
  · rw [if_pos h]
    obtain ⟨rfl, hm⟩ := h
    obtain ⟨r, h1, h2, h3⟩ := observeController_profile hdb ω uuid hu remotes hm
    refine ⟨_, h1, ?_, ?_⟩
    · rw [replace_entries (by rw [hi.addrs]; exact lastOccurrences_nodup _), h2, hi.entries, knownNodes_append]
    · intro x hx
      rcases replace_mem hx with hx | rfl
      · exact hi.std x hx
      · exact h3
  · rw [if_neg h, List.append_nil]
    refine ⟨remotes, observeController_other b db ω uuid free remotes ?_, hi⟩
    cases free with
    | false => exact Or.inl rfl
    | true => exact Or.inr (fun hm => h ⟨rfl, hm⟩)

/-! ## Clones -/

theorem clone_remote (b : Build) (ω : HashOrder) {r : RemoteNode} (h : ∀ o ∈ r.objects, StdObject o) :
    ∃ r', r.clone b ω = .ok r' ∧ entry r' = entry r ∧ r'.objects.length = r.objects.length ∧
      ∀ i (h₁ : i < r.objects.length) (h₂ : i < r'.objects.length), 
        SameProps r'.objects[i].properties r.objects[i].properties := by
  have key : ∀ (os : List Object) (ω : HashOrder) (acc : RemoteNode), (∀ o ∈ os, StdObject o) →
      ∃ os', RemoteNode.cloneLoop b ω acc os = .ok ⟨acc.addr, acc.objects ++ os'⟩ ∧
        os'.map Object.code = os.map Object.code ∧ os'.length = os.length ∧
        ∀ i (h₁ : i < os.length) (h₂ : i < os'.length), SameProps os'[i].properties os[i].properties := by
    intro os
    induction os with
    | nil => intro ω acc _; exact ⟨[], by simp [RemoteNode.cloneLoop], rfl, rfl, fun i h => by simp at h⟩
    | cons o os ih =>
      intro ω acc hs
      have ho := hs o (by simp)
      obtain ⟨c, hc⟩ := Object.clone_no_panic (b := b) (ω := ω.sub 0) (o := o) (Or.inr ho.ok.2)
      obtain ⟨hsame, hid⟩ := Object.clone_same ho.ok.1 hc
      obtain ⟨os', h1, h2, h3, h4⟩ := ih (ω.sub 1) (acc.addObject c) (fun x hx => hs x (by simp [hx]))
      refine ⟨c :: os', ?_, ?_, by simp [h3], ?_⟩
      · simp only [RemoteNode.cloneLoop, hc, Res.bind_ok, h1]
        simp [RemoteNode.addObject]
      · rw [List.map_cons, List.map_cons, h2, Node.code_of_sameId hid]
      · intro i h₁ h₂
        cases i with
        | zero => exact hsame
        | succ i => exact h4 i (by simpa using h₁) (by simpa using h₂)
  obtain ⟨os', h1, h2, h3, h4⟩ := key r.objects ω ⟨r.addr, []⟩ h
  refine ⟨⟨r.addr, os'⟩, ?_, ?_, h3, h4⟩
  · unfold RemoteNode.clone; rw [h1]; simp
  · unfold entry
    simp only
    have := congrArg (List.map UInt32.toNat) h2
    rw [List.map_map, List.map_map] at this
    exact congrArg _ this

theorem nodes_eq (b : Build) (ω : HashOrder) {h : Host S} (hs : ∀ r ∈ h.remotes, ∀ o ∈ r.objects, StdObject o) :
    ∃ l, h.nodes b ω = .ok l ∧ l.map entry = h.remotes.map entry := by
  unfold Host.nodes
  generalize h.remotes = rs at hs
  induction rs generalizing ω with
  | nil => exact ⟨[], rfl, rfl⟩
  | cons r rs ih =>
    obtain ⟨c, hc, he, _⟩ := clone_remote b (ω.sub 0) (hs r (by simp))
    obtain ⟨cs, hcs, hes⟩ := ih (ω.sub 1) (fun x hx => hs x (by simp [hx]))
    refine ⟨c :: cs, ?_, by simp [he, hes]⟩
    simp only [Host.nodesLoop, hc, Res.bind_ok, hcs, Res.pure_eq]

end Uecho
