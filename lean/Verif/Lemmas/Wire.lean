import Verif.Spec.Wire
/-! Helper lemmas about the codec. -/
namespace Uecho
open Spec

theorem encProp_length (p : WProperty) : (encProp p).length = 2 + p.size := by
  simp [encProp, WProperty.size]; omega

theorem toNat_ofNat_le {n : Nat} (h : n ≤ 255) : (UInt8.ofNat n).toNat = n := by
  simp [UInt8.toNat_ofNat']; omega

/-- The copy loop equals `take`. -/
theorem copyLoop (l : List UInt8) (n : Nat) (h : n ≤ l.length) :
    (List.range n).foldlM (fun (d : List UInt8) (n : Nat) => do
      let x ← index l n
      pure (d ++ [x])) [] = (Res.ok (l.take n) : Res (List UInt8)) := by
  induction n with
  | zero => simp
  | succ n ih =>
    rw [List.range_succ, List.foldlM_append, ih (by omega)]
    have hn : n < l.length := by omega
    simp only [Res.bind_ok, List.foldlM_cons, List.foldlM_nil, index_lt hn, Res.pure_eq]
    rw [List.take_add_one, List.getElem?_eq_getElem hn]; rfl

/-- Closed form of `Property::parse`. -/
theorem WProperty.parse_eq (self : WProperty) (msg : List UInt8) :
    WProperty.parse self msg = Res.ok (match msg with
      | c :: z :: rest =>
        if rest.length < z.toNat then (false, ⟨c, []⟩) else (true, ⟨c, rest.take z.toNat⟩)
      | _ => (false, self)) := by
  match msg with
  | [] => simp [WProperty.parse]
  | [a] => simp [WProperty.parse]
  | c :: z :: rest =>
    simp only [WProperty.parse, List.length_cons]
    rw [if_neg (by omega)]
    simp only [index, List.getElem?_cons_zero, List.getElem?_cons_succ, Res.bind_ok]
    by_cases hz : z.toNat = 0
    · simp [hz]
    · rw [if_neg hz]
      by_cases hl : rest.length < z.toNat
      · rw [if_pos (by omega), if_pos hl]; rfl
      · rw [if_neg (by omega), if_neg hl]
        have hs : sliceFrom (c :: z :: rest) 2 = Res.ok rest := by simp [sliceFrom]
        rw [hs, Res.bind_ok]
        have := copyLoop rest z.toNat (by omega)
        simp only [index] at this
        rw [this]; rfl

theorem WProperty.parse_encProp (p : WProperty) (rest : List UInt8) (h : p.data.length ≤ 255) :
    WProperty.parse WProperty.new (encProp p ++ rest) = Res.ok (true, p) := by
  rw [WProperty.parse_eq]
  simp only [encProp, List.cons_append, List.nil_append]
  rw [toNat_ofNat_le h]
  simp

theorem WProperty.parse_true {self : WProperty} {msg : List UInt8} {p : WProperty}
    (h : WProperty.parse self msg = Res.ok (true, p)) :
    p.data.length ≤ 255 ∧ ∃ rest, msg = encProp p ++ rest := by
  rw [WProperty.parse_eq] at h
  match msg with
  | [] => simp at h
  | [a] => simp at h
  | c :: z :: rest =>
    simp only [Res.ok.injEq] at h
    split at h
    · simp at h
    · rename_i hl
      simp only [Prod.mk.injEq, true_and] at h
      subst h
      have hz : z.toNat ≤ 255 := by have := z.toNat_lt; omega
      have hmin : min z.toNat rest.length = z.toNat := by omega
      refine ⟨by simp; omega, rest.drop z.toNat, ?_⟩
      simp [encProp, hmin]

theorem WProperty.parse_ne_panic (self : WProperty) (msg : List UInt8) :
    WProperty.parse self msg ≠ Res.panic := by
  rw [WProperty.parse_eq]; simp

namespace Message

theorem parsePropsLoop_complete (ps : List WProperty) (pre rest : List UInt8)
    (acc : List WProperty) (h : ∀ p ∈ ps, p.data.length ≤ 255) :
    parsePropsLoop (pre ++ (ps.flatMap encProp ++ rest)) ps.length acc pre.length =
      Res.ok (true, acc ++ ps, pre.length + (ps.flatMap encProp).length) := by
  induction ps generalizing pre acc with
  | nil => simp [parsePropsLoop]
  | cons p ps ih =>
    simp only [List.length_cons, parsePropsLoop, sliceFrom_append, Res.bind_ok]
    simp only [List.flatMap_cons, List.append_assoc]
    rw [WProperty.parse_encProp p _ (h p (by simp)), Res.bind_ok]
    simp only [Bool.not_true, Bool.false_eq_true, if_false]
    have hl : pre.length + (2 + p.size) = (pre ++ encProp p).length := by
      simp [encProp_length]
    rw [hl]
    have := ih (pre ++ encProp p) (acc ++ [p]) (fun q hq => h q (by simp [hq]))
    simp only [List.append_assoc] at this
    rw [this]
    simp [Nat.add_assoc]

theorem parsePropsLoop_sound (msg : List UInt8) (k : Nat) (acc : List WProperty) (off : Nat)
    (hoff : off ≤ msg.length) {out : List WProperty} {off' : Nat}
    (h : parsePropsLoop msg k acc off = Res.ok (true, out, off')) :
    ∃ ps rest, ps.length = k ∧ out = acc ++ ps ∧ (∀ p ∈ ps, p.data.length ≤ 255) ∧
      msg.drop off = ps.flatMap encProp ++ rest ∧
      off' = off + (ps.flatMap encProp).length := by
  induction k generalizing acc off with
  | zero =>
    simp [parsePropsLoop] at h
    exact ⟨[], msg.drop off, by simp [h]⟩
  | succ k ih =>
    simp only [parsePropsLoop, sliceFrom_le hoff, Res.bind_ok] at h
    obtain ⟨⟨b, p⟩, hp, h⟩ := Res.bind_eq_ok.mp h
    cases b with
    | false => simp at h
    | true =>
      simp only [Bool.not_true, Bool.false_eq_true, if_false] at h
      obtain ⟨hlen, rest, hrest⟩ := WProperty.parse_true hp
      have hdl : msg.length - off = 2 + p.size + rest.length := by
        have := congrArg List.length hrest
        simpa [encProp_length] using this
      obtain ⟨ps, rest', h1, h2, h3, h4, h5⟩ := ih _ _ (by omega) h
      refine ⟨p :: ps, rest', by simp [h1], by simp [h2], ?_, ?_, ?_⟩
      · intro q hq
        cases List.mem_cons.mp hq with
        | inl e => rw [e]; exact hlen
        | inr e => exact h3 q e
      · rw [hrest]
        have : msg.drop (off + (2 + p.size)) = rest := by
          rw [← List.drop_drop, hrest, ← encProp_length, List.drop_left]
        rw [this] at h4
        simp [h4]
      · rw [h5]; simp [encProp_length]; omega

theorem parsePropsLoop_ne_panic (msg : List UInt8) (k : Nat) (acc : List WProperty) (off : Nat)
    (hoff : off ≤ msg.length) : parsePropsLoop msg k acc off ≠ Res.panic := by
  induction k generalizing acc off with
  | zero => simp [parsePropsLoop]
  | succ k ih =>
    simp only [parsePropsLoop, sliceFrom_le hoff, Res.bind_ok]
    cases hp : WProperty.parse WProperty.new (msg.drop off) with
    | panic => exact absurd hp (WProperty.parse_ne_panic _ _)
    | ok r =>
      obtain ⟨b, p⟩ := r
      cases b with
      | false => simp
      | true =>
        simp only [Res.bind_ok, Bool.not_true, Bool.false_eq_true, if_false]
        obtain ⟨_, rest, hrest⟩ := WProperty.parse_true hp
        have hdl : msg.length - off = 2 + p.size + rest.length := by
          have := congrArg List.length hrest
          simpa [encProp_length] using this
        exact ih _ _ (by omega)

/-- Failure or success of the loop never moves the offset past the end. -/
theorem parsePropsLoop_off_le (msg : List UInt8) (k : Nat) (acc : List WProperty) (off : Nat)
    (hoff : off ≤ msg.length) {out : List WProperty} {off' : Nat}
    (h : parsePropsLoop msg k acc off = Res.ok (true, out, off')) : off' ≤ msg.length := by
  obtain ⟨ps, rest, _, _, _, h4, h5⟩ := parsePropsLoop_sound msg k acc off hoff h
  have := congrArg List.length h4
  simp only [List.length_drop, List.length_append] at this
  omega

theorem parsePropertyBytes_complete (ps : List WProperty) (pre rest : List UInt8)
    (acc : List WProperty) (h : InRange ps) :
    parsePropertyBytes acc (pre ++ (encList ps ++ rest)) pre.length =
      Res.ok (true, acc ++ ps, pre.length + (encList ps).length) := by
  have h0 : index (pre ++ (encList ps ++ rest)) pre.length
      = Res.ok (UInt8.ofNat ps.length) := by
    rw [index_append_right]; simp [index, encList]
  simp only [parsePropertyBytes, h0, Res.bind_ok, toNat_ofNat_le h.1]
  have := parsePropsLoop_complete ps (pre ++ [UInt8.ofNat ps.length]) rest acc h.2
  simp only [List.length_append, List.length_singleton, List.append_assoc] at this
  simp only [encList, List.cons_append, List.length_cons]
  simp only [List.singleton_append] at this
  rw [this]
  simp; omega

theorem parsePropertyBytes_sound (msg : List UInt8) (acc : List WProperty) (off : Nat)
    {out : List WProperty} {off' : Nat}
    (h : parsePropertyBytes acc msg off = Res.ok (true, out, off')) :
    ∃ ps rest, out = acc ++ ps ∧ InRange ps ∧ msg.drop off = encList ps ++ rest ∧
      off' = off + (encList ps).length ∧ off' ≤ msg.length := by
  simp only [parsePropertyBytes] at h
  obtain ⟨opc, ho, h⟩ := Res.bind_eq_ok.mp h
  have hlt : off < msg.length := by
    by_cases hl : off < msg.length
    · exact hl
    · rw [index_ge (by omega)] at ho; simp at ho
  rw [index_lt hlt] at ho
  simp only [Res.ok.injEq] at ho
  have hle := parsePropsLoop_off_le msg _ acc (off + 1) (by omega) h
  obtain ⟨ps, rest, h1, h2, h3, h4, h5⟩ := parsePropsLoop_sound msg _ acc (off + 1) (by omega) h
  refine ⟨ps, rest, h2, ⟨?_, h3⟩, ?_, ?_, hle⟩
  · have := opc.toNat_lt; omega
  · rw [List.drop_eq_getElem_cons hlt, h4, ho, encList, h1]; simp
  · rw [h5]; simp [encList]; omega

theorem parsePropertyBytes_panic_iff (msg : List UInt8) (acc : List WProperty) (off : Nat) :
    parsePropertyBytes acc msg off = Res.panic ↔ msg.length ≤ off := by
  by_cases hl : off < msg.length
  · simp only [parsePropertyBytes, index_lt hl, Res.bind_ok]
    have := parsePropsLoop_ne_panic msg msg[off].toNat acc (off + 1) (by omega)
    constructor
    · intro h; exact absurd h this
    · intro h; omega
  · simp only [parsePropertyBytes, index_ge (show msg.length ≤ off by omega), Res.bind_panic]
    simp; omega

theorem addPropertyBytes_eq (acc : List UInt8) (ps : List WProperty) :
    addPropertyBytes acc ps = acc ++ encList ps := by
  have key : ∀ (l : List WProperty) (a : List UInt8),
      l.foldl (fun acc p => acc ++ propBytes p) a = a ++ l.flatMap encProp := by
    intro l
    induction l with
    | nil => intro a; simp
    | cons p l ih =>
      intro a
      rw [List.foldl_cons, ih]
      simp [propBytes, encProp, WProperty.size]
  simp [addPropertyBytes, key, encList]

end Message
end Uecho
