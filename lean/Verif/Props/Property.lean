import Verif.Props.Codec
import Verif.Props.Object
import Verif.Spec.Property
/-!
# C60: the accessors of a property are determined by the calls made on it
-/
namespace Uecho
open Spec

theorem lastSet_concat {ω α : Type} (f : ω → Option α) (d : α) (ops : List ω) (op : ω) :
    lastSet f d (ops ++ [op]) = (f op).getD (lastSet f d ops) := by
  unfold lastSet
  rw [List.filterMap_append]
  cases h : f op <;> simp [h]

theorem runPropertyOps_concat (b : Build) (p : Property) (ops : List PropertyOp) (op : PropertyOp) :
    runPropertyOps b p (ops ++ [op]) = (runPropertyOps b p ops >>= fun q => op.run b q) := by
  unfold runPropertyOps
  rw [List.foldlM_append]
  congr 1
  funext q
  simp only [List.foldlM_cons, List.foldlM_nil]
  cases op.run b q <;> rfl

/-- Induction from the right over histories. -/
theorem reverse_induction {α : Type} {P : List α → Prop} (nil : P [])
    (snoc : ∀ l a, P l → P (l ++ [a])) (l : List α) : P l := by
  rw [← List.reverse_reverse l]
  induction l.reverse with
  | nil => exact nil
  | cons a l ih => rw [List.reverse_cons]; exact snoc _ _ ih

theorem PropertyOp.run_narrow (b : Build) (p : Property) (op : PropertyOp) (h : op.Narrow) :
    ∃ q, op.run b p = .ok q := by
  cases op with
  | setIntData v n =>
    have hl : (List.replicate n (0 : UInt8)).length ≤ 4 := by rw [List.length_replicate]; exact h
    refine ⟨p.setData (be n v.toNat), ?_⟩
    show p.setIntData b v n = _
    unfold Property.setIntData
    rw [C11_fromU32 b v _ hl]
    simp
  | _ => exact ⟨_, rfl⟩

/-- C60: no call panics as long as integers are stored on at most four bytes. -/
theorem C60_no_panic (b : Build) (p : Property) (ops : List PropertyOp) (h : ∀ op ∈ ops, op.Narrow) :
    ∃ q, runPropertyOps b p ops = .ok q := by
  induction ops using reverse_induction with
  | nil => exact ⟨p, rfl⟩
  | snoc ops op ih =>
    obtain ⟨q, hq⟩ := ih (fun o ho => h o (by simp [ho]))
    obtain ⟨r, hr⟩ := PropertyOp.run_narrow b q op (h op (by simp))
    exact ⟨r, by rw [runPropertyOps_concat, hq]; simpa using hr⟩

/-- C60: after every history of calls on a property, each attribute accessor returns what the last call of its
setter gave, or the initial value; no other call changes it. -/
theorem C60_fields (b : Build) (p q : Property) (ops : List PropertyOp)
    (h : runPropertyOps b p ops = .ok q) :
    q.code = lastSet (fun | .setCode c => some c | _ => none) p.code ops ∧
    q.name = lastSet (fun | .setName s => some s | _ => none) p.name ops ∧
    q.typ = lastSet (fun | .setDataType s => some s | _ => none) p.typ ops ∧
    q.capacity = lastSet (fun | .setCapacity n => some n | _ => none) p.capacity ops ∧
    q.readAttr = lastSet (fun | .setReadAttribute r => some r | _ => none) p.readAttr ops ∧
    q.writeAttr = lastSet (fun | .setWriteAttribute r => some r | _ => none) p.writeAttr ops ∧
    q.annoAttr = lastSet (fun | .setAnnoAttribute r => some r | _ => none) p.annoAttr ops ∧
    ∀ k, q.findEnum k = lastSet (fun | .addEnum e => if e.code = k then some (some e) else none | _ => none)
      (p.findEnum k) ops := by
  induction ops using reverse_induction generalizing q with
  | nil =>
    simp only [runPropertyOps, List.foldlM_nil, Res.pure_eq, Res.ok.injEq] at h
    subst h
    simp [lastSet]
  | snoc ops op ih =>
    rw [runPropertyOps_concat] at h
    obtain ⟨r, hr, h⟩ := Res.bind_eq_ok.mp h
    obtain ⟨h1, h2, h3, h4, h5, h6, h7, h8⟩ := ih r hr
    simp only [lastSet_concat]
    cases op with
    | setIntData v n =>
      simp only [PropertyOp.run, Property.setIntData] at h
      obtain ⟨buf, _, h⟩ := Res.bind_eq_ok.mp h
      simp only [Res.pure_eq, Res.ok.injEq] at h
      subst h
      exact ⟨h1, h2, h3, h4, h5, h6, h7, h8⟩
    | addEnum e =>
      simp only [PropertyOp.run, Res.ok.injEq] at h
      subst h
      refine ⟨h1, h2, h3, h4, h5, h6, h7, fun k => ?_⟩
      have h8 := h8 k
      simp only [Property.findEnum, Property.addEnum] at h8 ⊢
      by_cases hk : e.code = k
      · subst hk; simp
      · rw [if_neg (fun h => hk h.symm), if_neg hk]; exact h8
    | _ =>
      simp only [PropertyOp.run, Res.ok.injEq] at h
      subst h
      first
        | exact ⟨h1, h2, h3, h4, h5, h6, h7, h8⟩
        | exact ⟨rfl, h2, h3, h4, h5, h6, h7, h8⟩
        | exact ⟨h1, rfl, h3, h4, h5, h6, h7, h8⟩
        | exact ⟨h1, h2, rfl, h4, h5, h6, h7, h8⟩
        | exact ⟨h1, h2, h3, rfl, h5, h6, h7, h8⟩
        | exact ⟨h1, h2, h3, h4, rfl, h6, h7, h8⟩
        | exact ⟨h1, h2, h3, h4, h5, rfl, h7, h8⟩
        | exact ⟨h1, h2, h3, h4, h5, h6, rfl, h8⟩

/-- Calls that replace nothing only append. -/
theorem appended (b : Build) (p q : Property) (ops : List PropertyOp)
    (hn : ∀ op ∈ ops, op.replaces = none) (h : runPropertyOps b p ops = .ok q) :
    q.data = p.data ++ ops.flatMap PropertyOp.appends := by
  induction ops using reverse_induction generalizing q with
  | nil =>
    simp only [runPropertyOps, List.foldlM_nil, Res.pure_eq, Res.ok.injEq] at h
    subst h; simp
  | snoc ops op ih =>
    rw [runPropertyOps_concat] at h
    obtain ⟨r, hr, h⟩ := Res.bind_eq_ok.mp h
    have ih := ih r (fun o ho => hn o (by simp [ho])) hr
    have hop := hn op (by simp)
    cases op <;> simp only [PropertyOp.replaces, reduceCtorEq] at hop <;>
      simp only [PropertyOp.run, Res.ok.injEq] at h <;> subst h <;>
      simp [Property.setCode, Property.setName, Property.setDataType, Property.setCapacity,
        Property.setReadAttribute, Property.setWriteAttribute, Property.setAnnoAttribute, Property.addEnum,
        Property.addData, PropertyOp.appends, ih]

/-- C60: the data of a property is what the last replacing call stored followed by everything appended since,
in order; with no replacing call it is the initial data followed by everything appended. All the reading
accessors agree with that byte string. -/
theorem C60_data (b : Build) (p q : Property) (pre post : List PropertyOp) (op : PropertyOp) (d : List UInt8)
    (hop : op.replaces = some d) (hw : op.Narrow) (hpost : ∀ o ∈ post, o.replaces = none)
    (h : runPropertyOps b p (pre ++ op :: post) = .ok q) :
    q.data = d ++ post.flatMap PropertyOp.appends := by
  unfold runPropertyOps at h
  rw [List.foldlM_append] at h
  obtain ⟨r, hr, h⟩ := Res.bind_eq_ok.mp h
  rw [List.foldlM_cons] at h
  obtain ⟨s, hs, h⟩ := Res.bind_eq_ok.mp h
  have := appended b s q post hpost h
  rw [this]
  congr 1
  cases op <;> simp only [PropertyOp.replaces, Option.some.injEq, reduceCtorEq] at hop <;>
    simp only [PropertyOp.run, Res.ok.injEq] at hs
  · subst hop hs; rfl
  · subst hop hs; rfl
  · rename_i v n _
    subst hop
    have hl : (List.replicate n (0 : UInt8)).length ≤ 4 := by simpa [PropertyOp.Narrow] using hw
    unfold Property.setIntData at hs
    rw [C11_fromU32 b v _ hl] at hs
    simp at hs
    subst hs; rfl

/-- C60: without a replacing call the data is the initial data followed by everything appended. -/
theorem C60_data_appended (b : Build) (p q : Property) (ops : List PropertyOp)
    (hn : ∀ op ∈ ops, op.replaces = none) (h : runPropertyOps b p ops = .ok q) :
    q.data = p.data ++ ops.flatMap PropertyOp.appends := appended b p q ops hn h

/-- C60: the reading accessors all describe the same byte string: its length, its first byte (0 when empty),
its big-endian value (0 when empty, at most four bytes), comparison with another byte string, and what is
put into a message. -/
theorem C60_readers (b : Build) (p : Property) (d : List UInt8) :
    p.size = p.data.length ∧
    p.dataAsByte = p.data.head?.getD 0 ∧
    (p.data.length ≤ 4 → ∃ v, p.dataAsInt b = .ok v ∧ v.toNat = beVal p.data) ∧
    (p.equalsData d = true ↔ d = p.data) ∧
    p.toWire.code = p.code ∧ p.toWire.data = p.data := by
  refine ⟨rfl, ?_, ?_, ?_, rfl, rfl⟩
  · unfold Property.dataAsByte; cases p.data <;> rfl
  · intro h
    unfold Property.dataAsInt
    by_cases hz : p.data.length ≤ 0
    · rw [if_pos hz]
      have : p.data = [] := List.eq_nil_of_length_eq_zero (by omega)
      exact ⟨0, rfl, by rw [this]; rfl⟩
    · rw [if_neg hz]; exact C11_toU32 b p.data h
  · rw [Property.equalsData_iff]
    exact eq_comm

/-- C60: the access predicates are exactly the ones the attribute names promise: required and optional
properties are accessible, only required ones are required, read-only is readable and not writable, write-only
is writable and not readable. -/
theorem C60_access (p : Property) :
    (p.isReadable = true ↔ p.readAttr = .Required ∨ p.readAttr = .Optional) ∧
    (p.isWritable = true ↔ p.writeAttr = .Required ∨ p.writeAttr = .Optional) ∧
    (p.isAnnounceable = true ↔ p.annoAttr = .Required ∨ p.annoAttr = .Optional) ∧
    (p.isReadRequired = true ↔ p.readAttr = .Required) ∧
    (p.isWriteRequired = true ↔ p.writeAttr = .Required) ∧
    (p.isAnnounceRequired = true ↔ p.annoAttr = .Required) ∧
    (p.isReadonly = true ↔ p.readAttr ≠ .Prohibited ∧ p.writeAttr = .Prohibited) ∧
    (p.isWriteonly = true ↔ p.writeAttr ≠ .Prohibited ∧ p.readAttr = .Prohibited) := by
  obtain ⟨_, _, _, _, _, r, w, a, _⟩ := p
  cases r <;> cases w <;> cases a <;>
    simp [Property.isReadable, Property.isWritable, Property.isAnnounceable, Property.isReadRequired,
      Property.isWriteRequired, Property.isAnnounceRequired, Property.isReadonly, Property.isWriteonly]

/-- C60: what a property starts with: code 0, no data, no name or type, capacity 0, no access of any kind and no
enumeration. -/
theorem C60_new : Property.new.code = 0 ∧ Property.new.data = [] ∧ Property.new.name = "" ∧ Property.new.typ = "" ∧
    Property.new.capacity = 0 ∧ Property.new.isReadable = false ∧ Property.new.isWritable = false ∧
    Property.new.isAnnounceable = false ∧ ∀ k, Property.new.findEnum k = none :=
  ⟨rfl, rfl, rfl, rfl, rfl, rfl, rfl, rfl, fun _ => rfl⟩

/-- A history mixing replacing, appending and attribute calls: what the theorems above say about it. -/
example : ∃ q, runPropertyOps .dev Property.new
      [.setCode 0x80, .addData [1], .setIntData 0x12345678 3, .setReadAttribute .Required, .addData [7],
       .addEnum ⟨0x30, "on", ""⟩, .addData [8]] = .ok q ∧
    q.data = [0x34, 0x56, 0x78, 7, 8] ∧ q.code = 0x80 ∧ q.isReadable = true ∧ q.isReadonly = true ∧
    q.isWriteonly = false ∧ q.dataAsByte = 0x34 ∧ (q.findEnum 0x30).map (·.name) = some "on" ∧
    q.findEnum 0x31 = none := by
  refine ⟨_, rfl, ?_⟩
  decide +kernel
