import Verif.Spec.FromBytes
import Verif.Props.Codec
/-!
# `Message::from_bytes` on arbitrary bytes: C80
-/
namespace Uecho
open Spec

theorem parse_false_rest {self p : WProperty} {msg : List UInt8} (h : WProperty.parse self msg = .ok (false, p)) :
    ∀ (q : WProperty) (r : List UInt8), q.data.length ≤ 255 → msg ≠ encProp q ++ r := by
  intro q r hq he
  rw [he, WProperty.parse_eq] at h
  simp only [encProp, List.cons_append, List.nil_append] at h
  rw [toNat_ofNat_le hq, if_neg (by simp)] at h
  simp at h

/-- Every byte string has a readable front, and only one. -/
theorem C80_readable_unique (opc : Nat) (body : List UInt8) :
    (∃ qs rest, Readable opc body qs rest) ∧
    ∀ qs rest qs' rest', Readable opc body qs rest → Readable opc body qs' rest' → qs = qs' ∧ rest = rest' := by
  constructor
  · induction opc generalizing body with
    | zero => exact ⟨[], body, rfl, by simp, by simp, by simp⟩
    | succ k ih =>
      cases hp : WProperty.parse WProperty.new body with
      | panic => exact absurd hp (WProperty.parse_ne_panic _ _)
      | ok r =>
        obtain ⟨b, p⟩ := r
        cases b with
        | false => exact ⟨[], body, rfl, by simp, by simp, fun _ => parse_false_rest hp⟩
        | true =>
          obtain ⟨hlen, r, rfl⟩ := WProperty.parse_true hp
          obtain ⟨qs, rest, h⟩ := ih r
          refine ⟨p :: qs, rest, by simp [h.split], ?_, by simpa using h.count, ?_⟩
          · intro q hq
            rcases List.mem_cons.mp hq with rfl | hq
            · exact hlen
            · exact h.sizes q hq
          · intro hl
            exact h.longest (by simpa using hl)
  · intro qs
    induction qs generalizing opc body with
    | nil =>
      intro rest qs' rest' h h'
      cases qs' with
      | nil => exact ⟨rfl, by rw [← List.nil_append rest, ← List.nil_append rest']; exact h.split.symm.trans h'.split⟩
      | cons q qs' =>
        exfalso
        have hc := h'.count
        simp only [List.length_cons] at hc
        refine h.longest (by simp; omega) q (qs'.flatMap encProp ++ rest') (h'.sizes q (by simp)) ?_
        have := h.split.symm.trans h'.split
        simpa using this
    | cons p qs ih =>
      intro rest qs' rest' h h'
      have hs := h.split.symm.trans h'.split
      have hc := h.count
      simp only [List.length_cons] at hc
      cases qs' with
      | nil =>
        exfalso
        refine h'.longest (by simp; omega) p (qs.flatMap encProp ++ rest) (h.sizes p (by simp)) ?_
        simpa using hs.symm
      | cons q qs' =>
        have hc' := h'.count
        simp only [List.length_cons] at hc'
        have h1 := WProperty.parse_encProp p (qs.flatMap encProp ++ rest) (h.sizes p (by simp))
        have h2 := WProperty.parse_encProp q (qs'.flatMap encProp ++ rest') (h'.sizes q (by simp))
        simp only [List.flatMap_cons, List.append_assoc] at hs
        rw [hs, h2] at h1
        simp only [Res.ok.injEq, Prod.mk.injEq, true_and] at h1
        subst h1
        have hs' := List.append_cancel_left hs
        obtain ⟨rfl, rfl⟩ := ih (opc - 1) (qs.flatMap encProp ++ rest) rest qs' rest'
          ⟨rfl, fun x hx => h.sizes x (by simp [hx]), by omega, fun hl => h.longest (by simp; omega)⟩
          ⟨hs', fun x hx => h'.sizes x (by simp [hx]), by omega, fun hl => h'.longest (by simp; omega)⟩
        exact ⟨rfl, rfl⟩

theorem parsePropsLoop_readable {k : Nat} {body rest : List UInt8} {qs : List WProperty} (h : Readable k body qs rest)
    (pre : List UInt8) (acc : List WProperty) :
    Message.parsePropsLoop (pre ++ body) k acc pre.length =
      .ok (decide (qs.length = k), acc ++ qs, pre.length + (qs.flatMap encProp).length) := by
  induction k generalizing body qs pre acc with
  | zero =>
    have : qs = [] := by have := h.count; exact List.eq_nil_of_length_eq_zero (by omega)
    subst this
    simp [Message.parsePropsLoop]
  | succ k ih =>
    simp only [Message.parsePropsLoop, sliceFrom_append, Res.bind_ok]
    cases qs with
    | nil =>
      have hb : body = rest := by simpa using h.split
      have hl := h.longest (by simp)
      cases hp : WProperty.parse WProperty.new body with
      | panic => exact absurd hp (WProperty.parse_ne_panic _ _)
      | ok r =>
        obtain ⟨b, p⟩ := r
        cases b with
        | false => simp
        | true =>
          obtain ⟨hlen, r, hr⟩ := WProperty.parse_true hp
          exact absurd (hb.symm.trans hr) (hl p r hlen)
    | cons q qs =>
      have hb : body = encProp q ++ (qs.flatMap encProp ++ rest) := by simpa using h.split
      have hc := h.count
      simp only [List.length_cons] at hc
      rw [hb, WProperty.parse_encProp q _ (h.sizes q (by simp))]
      simp only [Res.bind_ok, Bool.not_true, Bool.false_eq_true, if_false]
      have := ih (body := qs.flatMap encProp ++ rest) (qs := qs)
        ⟨rfl, fun x hx => h.sizes x (by simp [hx]), by omega, fun hl => h.longest (by simp; omega)⟩ (pre ++ encProp q)
        (acc ++ [q])
      rw [List.append_assoc, List.length_append, encProp_length] at this
      rw [this]
      simp [encProp_length]
      omega

theorem parsePropertyBytes_readable {opc : UInt8} {body rest : List UInt8} {qs : List WProperty}
    (h : Readable opc.toNat body qs rest) (pre : List UInt8) (acc : List WProperty) :
    Message.parsePropertyBytes acc (pre ++ opc :: body) pre.length =
      .ok (decide (qs.length = opc.toNat), acc ++ qs, pre.length + 1 + (qs.flatMap encProp).length) := by
  have h0 : index (pre ++ opc :: body) pre.length = Res.ok opc := by
    rw [index_append_right]; simp [index]
  simp only [Message.parsePropertyBytes, h0, Res.bind_ok]
  have := parsePropsLoop_readable h (pre ++ [opc]) acc
  simpa using this

theorem header_bytes (tid seoj deoj : Nat) (esv : UInt8) (x : List UInt8) (ht : tid < 2 ^ 16) (hs : seoj < 2 ^ 24)
    (hd : deoj < 2 ^ 24) : ∃ t0 t1 s0 s1 s2 d0 d1 d2, headerBytes tid seoj deoj esv ++ x =
        0x10 :: 0x81 :: t0 :: t1 :: s0 :: s1 :: s2 :: d0 :: d1 :: d2 :: esv :: x ∧
      ∀ m : Message, (Message.withHeader m t0 t1 s0 s1 s2 d0 d1 d2 esv).tid.toNat = tid ∧
        (Message.withHeader m t0 t1 s0 s1 s2 d0 d1 d2 esv).seoj.toNat = seoj ∧
        (Message.withHeader m t0 t1 s0 s1 s2 d0 d1 d2 esv).deoj.toNat = deoj := by
  obtain ⟨t0, t1, s0, s1, s2, d0, d1, d2, he, e2, e3, e4⟩ := Message.header_split tid seoj deoj esv x
  refine ⟨t0, t1, s0, s1, s2, d0, d1, d2, he, fun m => ?_⟩
  obtain ⟨w1, w2, w3⟩ := Message.withHeader_frame m t0 t1 s0 s1 s2 d0 d1 d2 esv
  exact ⟨be2_inj (Message.tid_lt _) ht (w1.trans e2.symm), be3_inj (Message.objectCode_lt _) hs (w2.trans e3.symm),
    be3_inj (Message.objectCode_lt _) hd (w3.trans e4.symm)⟩

/-- C80, services with one list: `from_bytes` returns the header and the properties that can be read, whether or not
that is all of them; `parse` says whether it is. -/
theorem C80_single (tid seoj deoj : Nat) (esv opc : UInt8) (body rest : List UInt8) (qs : List WProperty)
    (ht : tid < 2 ^ 16) (hs : seoj < 2 ^ 24) (hd : deoj < 2 ^ 24) (hw : isWriteReadByte esv = false)
    (h : Readable opc.toNat body qs rest) :
    ∃ m, Message.fromBytes (headerBytes tid seoj deoj esv ++ opc :: body) = .ok m ∧
      frameOf m = ⟨tid, seoj, deoj, esv, .single qs⟩ ∧ m.setProperties = [] ∧ m.getProperties = [] ∧
      m.sender = Message.new.sender ∧
      Message.parse Message.new (headerBytes tid seoj deoj esv ++ opc :: body) = .ok (decide (qs.length = opc.toNat), m) := by
  obtain ⟨t0, t1, s0, s1, s2, d0, d1, d2, he, hh⟩ := header_bytes tid seoj deoj esv (opc :: body) ht hs hd
  rw [he]
  have hp := parsePropertyBytes_readable h [] Message.new.properties
  simp only [List.nil_append, List.length_nil] at hp
  obtain ⟨k1, k2, k3⟩ := hh Message.new
  have hparse : Message.parse Message.new
      (0x10 :: 0x81 :: t0 :: t1 :: s0 :: s1 :: s2 :: d0 :: d1 :: d2 :: esv :: opc :: body) =
      .ok (decide (qs.length = opc.toNat),
        { Message.withHeader Message.new t0 t1 s0 s1 s2 d0 d1 d2 esv with properties := qs }) := by
    rw [Message.parse_cons]
    simp only [hw, Bool.false_eq_true, if_false, hp, Res.bind_ok]
    rfl
  refine ⟨{ Message.withHeader Message.new t0 t1 s0 s1 s2 d0 d1 d2 esv with properties := qs }, ?_, ?_, rfl, rfl, rfl, hparse⟩
  · rw [Message.fromBytes, hparse]; rfl
  · unfold frameOf
    simp only [Message.withHeader, hw, Bool.false_eq_true, if_false]
    simp only [Frame.mk.injEq, and_true]
    exact ⟨k1, k2, k3⟩

/-- C80, services with two lists: the same; the second list is read if the first is complete. If nothing follows a
complete first list, `from_bytes` panics (C03). -/
theorem C80_double (tid seoj deoj : Nat) (esv opc : UInt8) (body rest : List UInt8) (qs : List WProperty)
    (ht : tid < 2 ^ 16) (hs : seoj < 2 ^ 24) (hd : deoj < 2 ^ 24) (hw : isWriteReadByte esv = true)
    (h : Readable opc.toNat body qs rest) :
    (qs.length < opc.toNat → ∃ m, Message.fromBytes (headerBytes tid seoj deoj esv ++ opc :: body) = .ok m ∧
      frameOf m = ⟨tid, seoj, deoj, esv, .setGet qs []⟩ ∧ m.properties = []) ∧
    (∀ opc₂ body₂ qs₂ rest₂, qs.length = opc.toNat → rest = opc₂ :: body₂ → Readable opc₂.toNat body₂ qs₂ rest₂ →
      ∃ m, Message.fromBytes (headerBytes tid seoj deoj esv ++ opc :: body) = .ok m ∧
        frameOf m = ⟨tid, seoj, deoj, esv, .setGet qs qs₂⟩ ∧ m.properties = [] ∧
        Message.parse Message.new (headerBytes tid seoj deoj esv ++ opc :: body) =
          .ok (decide (qs₂.length = opc₂.toNat), m)) ∧
    (qs.length = opc.toNat → rest = [] →
      Message.fromBytes (headerBytes tid seoj deoj esv ++ opc :: body) = .panic) := by
  obtain ⟨t0, t1, s0, s1, s2, d0, d1, d2, he, hh⟩ := header_bytes tid seoj deoj esv (opc :: body) ht hs hd
  rw [he]
  have hp := parsePropertyBytes_readable h [] Message.new.setProperties
  simp only [List.nil_append, List.length_nil] at hp
  obtain ⟨k1, k2, k3⟩ := hh Message.new
  have hset : Message.new.setProperties ++ qs = qs := rfl
  rw [hset] at hp
  refine ⟨?_, ?_, ?_⟩
  · intro hlt
    have hparse : Message.parse Message.new
        (0x10 :: 0x81 :: t0 :: t1 :: s0 :: s1 :: s2 :: d0 :: d1 :: d2 :: esv :: opc :: body) =
        .ok (false, { Message.withHeader Message.new t0 t1 s0 s1 s2 d0 d1 d2 esv with setProperties := qs }) := by
      rw [Message.parse_cons]
      simp only [hw, if_true, hp, Res.bind_ok]
      rw [if_neg (by simp; omega)]
    refine ⟨{ Message.withHeader Message.new t0 t1 s0 s1 s2 d0 d1 d2 esv with setProperties := qs }, ?_, ?_, ?_⟩
    · rw [Message.fromBytes, hparse]; rfl
    · unfold frameOf
      simp only [Message.withHeader, hw, if_true]
      simp only [Frame.mk.injEq]
      exact ⟨k1, k2, k3, trivial, rfl⟩
    · rfl
  · intro opc₂ body₂ qs₂ rest₂ hlen hrest h₂
    have hb : opc :: body = (opc :: qs.flatMap encProp) ++ opc₂ :: body₂ := by rw [h.split, hrest]; rfl
    have hp₂ := parsePropertyBytes_readable h₂ (opc :: qs.flatMap encProp) Message.new.getProperties
    have hget : Message.new.getProperties ++ qs₂ = qs₂ := rfl
    rw [← hb, hget] at hp₂
    have hoff : 0 + 1 + (qs.flatMap encProp).length = (opc :: qs.flatMap encProp).length := by simp; omega
    have hparse : Message.parse Message.new
        (0x10 :: 0x81 :: t0 :: t1 :: s0 :: s1 :: s2 :: d0 :: d1 :: d2 :: esv :: opc :: body) =
        .ok (decide (qs₂.length = opc₂.toNat), { Message.withHeader Message.new t0 t1 s0 s1 s2 d0 d1 d2 esv with
          setProperties := qs, getProperties := qs₂ }) := by
      rw [Message.parse_cons]
      simp only [hw, if_true, hp, Res.bind_ok]
      rw [if_pos (by simp [hlen]), hoff, hp₂]
      rfl
    refine ⟨{ Message.withHeader Message.new t0 t1 s0 s1 s2 d0 d1 d2 esv with
          setProperties := qs, getProperties := qs₂ }, ?_, ?_, rfl, hparse⟩
    · rw [Message.fromBytes, hparse]; rfl
    · unfold frameOf
      simp only [Message.withHeader, hw, if_true]
      simp only [Frame.mk.injEq, and_true]
      exact ⟨k1, k2, k3⟩
  · intro hlen hrest
    rw [C03_fromBytes, Message.parse_panic_iff]
    refine ⟨tid, seoj, deoj, esv, qs, ht, hs, hd, hw, ⟨by rw [hlen]; have := opc.toNat_lt; omega, h.sizes⟩, ?_⟩
    rw [← he]
    unfold headerBytes encList
    rw [h.split, hrest, hlen]
    simp

/-- C80: fewer than twelve bytes, or another frame format: at most the format and the TID are read. -/
theorem C80_no_frame (d : List UInt8) (hb : d.length < 12 ∨ d.take 2 ≠ [0x10, 0x81]) :
    Message.fromBytes d = .ok (match d with
      | a :: b :: t0 :: t1 :: _ :: _ => { Message.new with ehd := (a, b), tidBytes := (t0, t1) }
      | _ => Message.new) := by
  match d with
  | [] => rfl
  | [_] => rfl
  | [_, _] => rfl
  | [_, _, _] => rfl
  | [_, _, _, _] => rfl
  | a :: b :: t0 :: t1 :: x :: l =>
    have e1 : Message.parseHeader Message.new (a :: b :: t0 :: t1 :: x :: l) =
        .ok (true, { Message.new with ehd := (a, b), tidBytes := (t0, t1) }) := by
      simp [Message.parseHeader, index]
    have e2 : sliceFrom (a :: b :: t0 :: t1 :: x :: l) 4 = Res.ok (x :: l) := by simp [sliceFrom]
    have e3 : ∀ m : Message, m.ehd = (a, b) → m.isFormat1 = (decide (a = 0x10) && decide (b = 0x81)) := by
      intro m hm
      unfold Message.isFormat1
      rw [hm]
      by_cases ha : a = 0x10 <;> by_cases hb : b = 0x81 <;> simp [ha, hb]
    simp only [Message.fromBytes, Message.parse, e1, Res.bind_ok, Bool.not_true, Bool.false_eq_true, if_false,
      e3 { Message.new with ehd := (a, b), tidBytes := (t0, t1) } rfl]
    by_cases hf : a = 0x10 ∧ b = 0x81
    · have hl : (x :: l).length < 8 := by
        rcases hb with hb | hb
        · simp only [List.length_cons] at hb ⊢; omega
        · exfalso; apply hb; rw [hf.1, hf.2]; rfl
      simp only [hf.1, hf.2, decide_true, Bool.and_self, Bool.not_true, Bool.false_eq_true, if_false]
      rw [hf.1, hf.2] at e2
      simp only [e2, Res.bind_ok, Message.parseFormat1Data]
      rw [if_pos hl]; simp
    · have : (decide (a = 0x10) && decide (b = 0x81)) = false := by simpa using hf
      rw [this]; simp

/-- C80 fails as one would like it ("malformed bytes give no message"): a frame cut off inside a property gives exactly the
message of the shorter well-formed frame without that property and the following ones; the caller cannot tell. -/
theorem C80_truncation_undetected_fails (tid seoj deoj : Nat) (esv : UInt8) (qs : List WProperty) (q : WProperty)
    (more : List WProperty) (part : List UInt8) (hv : (Frame.mk tid seoj deoj esv (.single (qs ++ q :: more))).Valid)
    (hcut : ProperPrefix part (encProp q)) :
    ∃ m, Message.fromBytes (headerBytes tid seoj deoj esv ++ UInt8.ofNat (qs.length + 1 + more.length) ::
        (qs.flatMap encProp ++ part)) = .ok m ∧
      Message.fromBytes (Frame.encode ⟨tid, seoj, deoj, esv, .single qs⟩) = .ok m := by
  obtain ⟨ht, hs, hd, hw, hin⟩ := hv
  have hlen : qs.length + 1 + more.length ≤ 255 := by have := hin.1; simp at this; omega
  obtain ⟨t, htne, htp⟩ := hcut
  have r1 : Readable (UInt8.ofNat (qs.length + 1 + more.length)).toNat (qs.flatMap encProp ++ part) qs part := by
    rw [toNat_ofNat_le hlen]
    refine ⟨rfl, fun x hx => hin.2 x (by simp [hx]), by omega, fun _ x r hx he => ?_⟩
    -- a complete property in a proper prefix of one
    rw [he] at htp
    have hq := hin.2 q (by simp)
    have h1 := WProperty.parse_encProp q [] hq
    rw [List.append_nil, htp, List.append_assoc, WProperty.parse_encProp x _ hx] at h1
    simp only [Res.ok.injEq, Prod.mk.injEq, true_and] at h1
    subst h1
    have := congrArg List.length htp
    simp only [List.length_append] at this
    have : t.length = 0 := by omega
    exact htne (List.eq_nil_of_length_eq_zero this)
  have r2 : Readable (UInt8.ofNat qs.length).toNat (qs.flatMap encProp) qs [] := by
    rw [toNat_ofNat_le (by omega)]
    exact ⟨by simp, fun x hx => hin.2 x (by simp [hx]), Nat.le_refl _, fun hl => absurd hl (Nat.lt_irrefl _)⟩
  have he : Frame.encode ⟨tid, seoj, deoj, esv, .single qs⟩ =
      headerBytes tid seoj deoj esv ++ UInt8.ofNat qs.length :: qs.flatMap encProp := rfl
  rw [he]
  obtain ⟨t0, t1, s0, s1, s2, d0, d1, d2, he1, hh⟩ := header_bytes tid seoj deoj esv
    (UInt8.ofNat (qs.length + 1 + more.length) :: (qs.flatMap encProp ++ part)) ht hs hd
  refine ⟨{ Message.withHeader Message.new t0 t1 s0 s1 s2 d0 d1 d2 esv with properties := qs }, ?_, ?_⟩
  · rw [he1]
    have hp := parsePropertyBytes_readable r1 [] Message.new.properties
    simp only [List.nil_append, List.length_nil] at hp
    simp only [Message.fromBytes, Message.parse_cons, hw, Bool.false_eq_true, if_false, hp, Res.bind_ok]
    rfl
  · have he2 : headerBytes tid seoj deoj esv ++ UInt8.ofNat qs.length :: qs.flatMap encProp =
        0x10 :: 0x81 :: t0 :: t1 :: s0 :: s1 :: s2 :: d0 :: d1 :: d2 :: esv :: UInt8.ofNat qs.length :: qs.flatMap encProp := by
      have : headerBytes tid seoj deoj esv = [0x10, 0x81, t0, t1, s0, s1, s2, d0, d1, d2, esv] := by
        refine List.append_cancel_right (he1.trans ?_)
        rfl
      rw [this]; rfl
    rw [he2]
    have hp := parsePropertyBytes_readable r2 [] Message.new.properties
    simp only [List.nil_append, List.length_nil] at hp
    simp only [Message.fromBytes, Message.parse_cons, hw, Bool.false_eq_true, if_false, hp, Res.bind_ok]
    rfl

/-- Non-vacuity: a read response announcing three properties, cut off inside the second. -/
example : Readable 3 [0x80, 1, 0x30, 0xB0, 2, 0x41] [⟨0x80, [0x30]⟩] [0xB0, 2, 0x41] ∧
    ProperPrefix [0xB0, 2, 0x41] (encProp ⟨0xB0, [0x41, 0x42]⟩) ∧
    (Frame.mk 1 0x029001 0x05FF01 0x72 (.single ([⟨0x80, [0x30]⟩] ++ ⟨0xB0, [0x41, 0x42]⟩ :: [⟨0x81, []⟩]))).Valid := by
  refine ⟨⟨rfl, by decide, by decide, ?_⟩, ⟨[0x42], by decide, rfl⟩, by decide⟩
  intro _ q r hq he
  have h1 := WProperty.parse_encProp q r hq
  rw [← he] at h1
  revert h1
  rw [WProperty.parse_eq]
  simp

end Uecho
