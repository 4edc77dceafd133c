import Verif.Spec.RemoteNode
import Verif.Props.Controller
/-!
# Remote nodes built by the application: C71
-/
namespace Uecho
open Spec
variable {S : Type}

theorem applyAll_eq (cs : List RemoteCall) (r : RemoteNode) :
    cs.foldl RemoteCall.apply r = ⟨(addrsSet cs).getLastD r.addr, r.objects ++ objectsAdded cs⟩ := by
  induction cs generalizing r with
  | nil => simp [addrsSet, objectsAdded]
  | cons c cs ih =>
    rw [List.foldl_cons, ih]
    cases c with
    | setAddr a =>
      simp only [RemoteCall.apply, RemoteNode.setAddr, addrsSet, objectsAdded, List.filterMap_cons]
      rw [List.getLastD_cons]
    | addObject o =>
      simp only [RemoteCall.apply, RemoteNode.addObject, addrsSet, objectsAdded, List.filterMap_cons, List.append_assoc,
        List.singleton_append]

/-- C71: after any calls a remote node has the address set last (0.0.0.0:0 if none was set) and exactly the added
objects, in order; looking an object up finds the first one added with that code. -/
theorem C71_built (cs : List RemoteCall) :
    (builtRemote cs).addr = (addrsSet cs).getLastD ⟨.v4 0, 0⟩ ∧
    (builtRemote cs).objects = objectsAdded cs ∧
    (∀ code o, (builtRemote cs).findObject code = some o ↔
      ∃ pre post, objectsAdded cs = pre ++ o :: post ∧ o.code = code ∧ ∀ p ∈ pre, p.code ≠ code) ∧
    (∀ code, (builtRemote cs).findObject code = none ↔ ∀ o ∈ objectsAdded cs, o.code ≠ code) := by
  have h : builtRemote cs = ⟨(addrsSet cs).getLastD ⟨.v4 0, 0⟩, objectsAdded cs⟩ := by
    unfold builtRemote; rw [applyAll_eq]; rfl
  rw [h]
  refine ⟨rfl, rfl, fun code o => ?_, fun code => ?_⟩
  · unfold RemoteNode.findObject findObject
    rw [List.find?_eq_some_iff_append]
    constructor
    · rintro ⟨h1, pre, post, h2, h3⟩
      refine ⟨pre, post, h2, by simpa using h1, fun p hp => by simpa using h3 p hp⟩
    · rintro ⟨pre, post, h2, h1, h3⟩
      exact ⟨by simpa using h1, pre, post, h2, fun p hp => by simpa using h3 p hp⟩
  · unfold RemoteNode.findObject findObject
    simp [List.find?_eq_none]

/-- C71: two remote nodes compare equal exactly if address and port agree, whatever their objects; equal remote nodes
feed the same value to the hasher (so they can be keys of a hash map), and comparison is an equivalence. -/
theorem C71_eq (r r' r'' : RemoteNode) :
    (r.eq r' = true ↔ r.addr.ip = r'.addr.ip ∧ r.addr.port = r'.addr.port) ∧
    (r.eq r' = true → r.hashInput = r'.hashInput) ∧
    r.eq r = true ∧ (r.eq r' = true → r'.eq r = true) ∧ (r.eq r' = true → r'.eq r'' = true → r.eq r'' = true) := by
  have key : ∀ x y : RemoteNode, x.eq y = true ↔ x.addr = y.addr := by
    intro x y; unfold RemoteNode.eq; simp
  simp only [key]
  refine ⟨?_, fun h => h, trivial, fun h => h.symm, fun h h' => h.trans h'⟩
  rcases r with ⟨⟨ip, p⟩, _⟩
  rcases r' with ⟨⟨ip', p'⟩, _⟩
  simp

/-- C71: a message sent or posted to a remote node goes to the IP address set last; the port is always 3610, whatever
port was set. -/
theorem C71_addressed (ok : Nat → Bool) (h : Host S) (cs : List RemoteCall) (a : SocketAddr)
    (ha : (addrsSet cs).getLast? = some a) (msg : Message) :
    (∀ t ∈ txs (h.sendMessage ok true (builtRemote cs) msg).2.2.2, t.to = ⟨a.ip, 3610⟩) ∧
    (∀ t ∈ txs (h.postMessage ok (builtRemote cs) msg).2.2.2, t.to = ⟨a.ip, 3610⟩) := by
  have haddr : (builtRemote cs).addr = a := by
    rw [(C71_built cs).1, List.getLastD_eq_getLast?, ha]; rfl
  constructor
  · intro t ht
    rw [((C49_send ok h (builtRemote cs) msg).2.2.2.2.2.2.2.2.1 t ht).1, haddr]
  · intro t ht
    rw [((C49_post ok h (builtRemote cs) msg).2.2.2.2.2.2.2.2.1 t ht).1, haddr]

theorem cloneLoop_spec {b : Build} (os : List Object) (ω : HashOrder) (acc r' : RemoteNode) (hk : ∀ o ∈ os, KeysOk o)
    (h : RemoteNode.cloneLoop b ω acc os = .ok r') :
    ∃ os', r' = ⟨acc.addr, acc.objects ++ os'⟩ ∧ os'.length = os.length ∧
      ∀ i (h₁ : i < os.length) (h₂ : i < os'.length), os'[i].code = os[i].code ∧ os'[i].name = os[i].name ∧
        os'[i].className = os[i].className ∧ SameProps os'[i].properties os[i].properties := by
  induction os generalizing ω acc with
  | nil =>
    simp only [RemoteNode.cloneLoop, Res.ok.injEq] at h
    subst h
    exact ⟨[], by simp, rfl, fun i h₁ => absurd h₁ (by simp)⟩
  | cons o os ih =>
    simp only [RemoteNode.cloneLoop] at h
    obtain ⟨c, hc, h⟩ := Res.bind_eq_ok.mp h
    obtain ⟨os', rfl, hl, hs⟩ := ih _ _ (fun x hx => hk x (by simp [hx])) h
    obtain ⟨h1, h2⟩ := Object.clone_same (hk o (by simp)) hc
    refine ⟨c :: os', by simp [RemoteNode.addObject], by simp [hl], ?_⟩
    intro i h₁ h₂
    cases i with
    | zero =>
      simp only [List.getElem_cons_zero]
      exact ⟨Node.code_of_sameId h2, h2.2.1, h2.2.2, h1⟩
    | succ i =>
      simp only [List.getElem_cons_succ]
      exact hs i (by simpa using h₁) (by simpa using h₂)

/-- C71: a clone of a remote node is equal to it and has the same objects in the same order: same codes, names and
property attributes, and the same data except for the recomputed property maps. -/
theorem C71_clone (b : Build) (ω : HashOrder) (r r' : RemoteNode) (hk : ∀ o ∈ r.objects, KeysOk o)
    (h : r.clone b ω = .ok r') :
    r'.addr = r.addr ∧ r'.eq r = true ∧ r'.objects.length = r.objects.length ∧
    ∀ i (h₁ : i < r.objects.length) (h₂ : i < r'.objects.length),
      r'.objects[i].code = r.objects[i].code ∧ r'.objects[i].name = r.objects[i].name ∧
      r'.objects[i].className = r.objects[i].className ∧
      (∀ c, isMapCode c = false → r'.objects[i].findProperty c = r.objects[i].findProperty c) ∧
      (∀ c, (r'.objects[i].findProperty c).map attrsOf = (r.objects[i].findProperty c).map attrsOf) := by
  obtain ⟨os', rfl, hl, hs⟩ := cloneLoop_spec r.objects ω ⟨r.addr, []⟩ r' hk h
  refine ⟨rfl, by simp [RemoteNode.eq], by simp [hl], ?_⟩
  intro i h₁ h₂
  simp only [List.nil_append] at h₂ ⊢
  obtain ⟨g1, g2, g3, g4⟩ := hs i h₁ h₂
  exact ⟨g1, g2, g3, fun c hc => (g4 c).1 hc, fun c => (g4 c).2⟩

/-- C71: cloning does not panic (valid property codes, or a build without overflow checks). -/
theorem C71_clone_no_panic (b : Build) (ω : HashOrder) (r : RemoteNode)
    (h : b.overflowChecks = false ∨ ∀ o ∈ r.objects, CodesOk o) : ∃ r', r.clone b ω = .ok r' := by
  have key : ∀ (os : List Object) (ω : HashOrder) (acc : RemoteNode),
      (b.overflowChecks = false ∨ ∀ o ∈ os, CodesOk o) → ∃ r', RemoteNode.cloneLoop b ω acc os = .ok r' := by
    intro os
    induction os with
    | nil => intro ω acc _; exact ⟨acc, rfl⟩
    | cons o os ih =>
      intro ω acc h
      obtain ⟨c, hc⟩ := C18_clone_no_panic b (ω.sub 0) o (h.imp id (fun h => h o (by simp)))
      obtain ⟨r', hr⟩ := ih (ω.sub 1) (acc.addObject c) (h.imp id (fun h x hx => h x (by simp [hx])))
      exact ⟨r', by simp only [RemoteNode.cloneLoop, hc, Res.bind_ok, hr]⟩
  exact key r.objects ω _ h

/-- Non-vacuity of C71_addressed: an address set twice around an added object. -/
example : (addrsSet [.setAddr ⟨.v4 1, 2⟩, .addObject Object.new, .setAddr ⟨.v4 0xC0A80005, 4000⟩]).getLast? =
    some ⟨.v4 0xC0A80005, 4000⟩ := rfl

/-- Non-vacuity of C71_clone: a remote node with an object with two properties. -/
example : ∃ o, exObject [0x80, 0xB0] = .ok o ∧ KeysOk o ∧
    ∃ r', (builtRemote [.setAddr ⟨.v4 1, 2⟩, .addObject o]).clone .dev .ascending = .ok r' ∧
      r'.objects.map (fun o => o.code) = [0x029001] := by
  refine ⟨_, rfl, ?_, _, rfl, ?_⟩
  · exact Object.addAll_keysOk (b := .dev) (ω := .ascending) (o := Object.fromCode 0x029001)
      (ps := [0x80, 0xB0].map exProp) rfl (fromCode_keysOk _)
  · decide +kernel

end Uecho
