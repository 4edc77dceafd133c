import Verif.Lemmas.Wire
import Verif.Lemmas.Bits
/-! Helper lemmas: closed forms of the decoder and encoder on a concrete header. -/
namespace Uecho
open Spec

theorem be2_eq (n : Nat) : be 2 n = [UInt8.ofNat (n / 256 % 256), UInt8.ofNat (n % 256)] := by
  simp [be]

theorem be3_eq (n : Nat) :
    be 3 n = [UInt8.ofNat (n / 65536 % 256), UInt8.ofNat (n / 256 % 256), UInt8.ofNat (n % 256)] := by
  have : n / 256 / 256 = n / 65536 := by omega
  simp [be, this]

theorem ofNat_eq_of {x : UInt8} {n : Nat} (h : x.toNat = n) : UInt8.ofNat n = x := by
  subst h; simp

theorem be2_tid (a b : UInt8) : be 2 (a.toNat * 256 + b.toNat) = [a, b] := by
  have := a.toNat_lt; have := b.toNat_lt
  rw [be2_eq, ofNat_eq_of (x := a) (by omega), ofNat_eq_of (x := b) (by omega)]

theorem be3_eoj (a b c : UInt8) :
    be 3 (a.toNat * 65536 + b.toNat * 256 + c.toNat) = [a, b, c] := by
  have := a.toNat_lt; have := b.toNat_lt; have := c.toNat_lt
  rw [be3_eq, ofNat_eq_of (x := a) (by omega), ofNat_eq_of (x := b) (by omega),
    ofNat_eq_of (x := c) (by omega)]

theorem be_length (k n : Nat) : (be k n).length = k := by
  induction k generalizing n with
  | zero => rfl
  | succ k ih => simp [be, ih]

theorem be2_inj {m n : Nat} (hm : m < 2 ^ 16) (hn : n < 2 ^ 16) (h : be 2 m = be 2 n) : m = n := by
  simp only [be2_eq, List.cons.injEq, and_true] at h
  have h1 := congrArg UInt8.toNat h.1
  have h2 := congrArg UInt8.toNat h.2
  simp only [UInt8.toNat_ofNat'] at h1 h2
  omega

theorem be3_inj {m n : Nat} (hm : m < 2 ^ 24) (hn : n < 2 ^ 24) (h : be 3 m = be 3 n) : m = n := by
  simp only [be3_eq, List.cons.injEq, and_true] at h
  have h1 := congrArg UInt8.toNat h.1
  have h2 := congrArg UInt8.toNat h.2.1
  have h3 := congrArg UInt8.toNat h.2.2
  simp only [UInt8.toNat_ofNat'] at h1 h2 h3
  omega

/-- Universal statements over bytes are decidable (all 256 of them). -/
instance decForallU8 (P : UInt8 → Prop) [DecidablePred P] : Decidable (∀ b, P b) :=
  decidable_of_iff (∀ n : Fin 256, P (UInt8.ofFin n))
    ⟨fun h b => by simpa using h b.toFin, fun h n => h _⟩

/-- `m.esv` is one of the three write-read services iff the byte is. -/
theorem esv_wr (b : UInt8) :
    (ESV.fromU8 b = .WriteReadRequest ∨ ESV.fromU8 b = .WriteReadResponse ∨
      ESV.fromU8 b = .WriteReadRequestError) ↔ isWriteReadByte b = true := by
  revert b; decide +kernel

theorem fromU8_6E (b : UInt8) : ESV.fromU8 b = .WriteReadRequest ↔ b = 0x6E := by
  revert b; decide +kernel
theorem fromU8_7E (b : UInt8) : ESV.fromU8 b = .WriteReadResponse ↔ b = 0x7E := by
  revert b; decide +kernel
theorem fromU8_5E (b : UInt8) : ESV.fromU8 b = .WriteReadRequestError ↔ b = 0x5E := by
  revert b; decide +kernel

namespace Message

/-- The message after its header has been decoded. -/
def withHeader (m : Message) (t0 t1 s0 s1 s2 d0 d1 d2 e : UInt8) : Message :=
  { m with ehd := (0x10, 0x81), tidBytes := (t0, t1), seojBytes := (s0, s1, s2),
           deojBytes := (d0, d1, d2), esvByte := e }

/-- Decoding a buffer whose header is complete. -/
theorem parse_cons (m : Message) (t0 t1 s0 s1 s2 d0 d1 d2 e b : UInt8) (body : List UInt8) :
    parse m (0x10 :: 0x81 :: t0 :: t1 :: s0 :: s1 :: s2 :: d0 :: d1 :: d2 :: e :: b :: body) =
      (let mh := withHeader m t0 t1 s0 s1 s2 d0 d1 d2 e
       if isWriteReadByte e then do
         let r ← parsePropertyBytes m.setProperties (b :: body) 0
         if r.1 then do
           let r' ← parsePropertyBytes m.getProperties (b :: body) r.2.2
           Res.ok (r'.1, { mh with setProperties := r.2.1, getProperties := r'.2.1 })
         else Res.ok (false, { mh with setProperties := r.2.1 })
       else do
         let r ← parsePropertyBytes m.properties (b :: body) 0
         Res.ok (r.1, { mh with properties := r.2.1 })) := by
  have e1 : parseHeader m (0x10 :: 0x81 :: t0 :: t1 :: s0 :: s1 :: s2 :: d0 :: d1 :: d2 :: e :: b :: body)
      = Res.ok (true, { m with ehd := (0x10, 0x81), tidBytes := (t0, t1) }) := by
    simp [parseHeader, index]
  have e2 : sliceFrom (0x10 :: 0x81 :: t0 :: t1 :: s0 :: s1 :: s2 :: d0 :: d1 :: d2 :: e :: b :: body) 4
      = Res.ok (s0 :: s1 :: s2 :: d0 :: d1 :: d2 :: e :: b :: body) := by
    simp [sliceFrom]
  simp only [parse, e1, Res.bind_ok, Bool.not_true, Bool.false_eq_true, if_false, isFormat1,
    ne_eq, not_true_eq_false, or_self, e2]
  have e3 : ¬ ((s0 :: s1 :: s2 :: d0 :: d1 :: d2 :: e :: b :: body).length < 8) := by
    simp
  have e4 : sliceFrom (s0 :: s1 :: s2 :: d0 :: d1 :: d2 :: e :: b :: body) 7 = Res.ok (b :: body) := by
    simp [sliceFrom]
  simp only [parseFormat1Data, if_neg e3, e4]
  simp only [index, List.getElem?_cons_zero, List.getElem?_cons_succ, Res.bind_ok, esv]
  by_cases hw : isWriteReadByte e = true
  · rw [if_pos hw]
    rcases (esv_wr e).mpr hw with h | h | h <;>
    · simp only [h]
      cases parsePropertyBytes m.setProperties (b :: body) 0 with
      | panic => simp
      | ok r =>
        obtain ⟨rb, rp, ro⟩ := r
        cases rb with
        | false => simp [withHeader]
        | true =>
          simp only [Res.bind_ok, Bool.not_true, Bool.false_eq_true, if_false, if_true]
          cases parsePropertyBytes m.getProperties (b :: body) ro with
          | panic => simp
          | ok r' =>
            obtain ⟨rb', rp', ro'⟩ := r'
            cases rb' <;> simp [withHeader]
  · rw [if_neg hw]
    cases hp : parsePropertyBytes m.properties (b :: body) 0 with
    | panic => rw [parsePropertyBytes_panic_iff] at hp; simp at hp
    | ok r =>
      obtain ⟨rb, rp, ro⟩ := r
      split
      · rename_i h; exact absurd (Or.inl h) (fun h => hw ((esv_wr e).mp h))
      · rename_i h; exact absurd (Or.inr (Or.inl h)) (fun h => hw ((esv_wr e).mp h))
      · rename_i h; exact absurd (Or.inr (Or.inr h)) (fun h => hw ((esv_wr e).mp h))
      · cases rb <;> simp [withHeader]

/-- A buffer that is too short or does not start with the Format-1 header is refused. -/
theorem parse_short (m : Message) (d : List UInt8) (h : d.length < 12) :
    ∃ m', parse m d = Res.ok (false, m') := by
  unfold parse parseHeader
  by_cases h4 : d.length ≤ 4
  · simp [h4]
  · rw [if_neg h4]
    rw [index_lt (show 0 < d.length by omega), index_lt (show 1 < d.length by omega),
      index_lt (show 2 < d.length by omega), index_lt (show 3 < d.length by omega)]
    simp only [Res.bind_ok, Res.pure_eq, Bool.not_true, Bool.false_eq_true, if_false]
    split
    · simp
    · rw [sliceFrom_le (by omega)]
      simp only [Res.bind_ok, parseFormat1Data]
      rw [if_pos (by simp; omega)]
      simp

theorem parse_badHeader (m : Message) (d : List UInt8) (h : d.take 2 ≠ [0x10, 0x81]) :
    ∃ m', parse m d = Res.ok (false, m') := by
  unfold parse parseHeader
  by_cases h4 : d.length ≤ 4
  · simp [h4]
  · rw [if_neg h4]
    rw [index_lt (show 0 < d.length by omega), index_lt (show 1 < d.length by omega),
      index_lt (show 2 < d.length by omega), index_lt (show 3 < d.length by omega)]
    simp only [Res.bind_ok, Res.pure_eq, Bool.not_true, Bool.false_eq_true, if_false, isFormat1]
    match d, h4, h with
    | [_], h4, _ => simp at h4
    | a :: b :: rest, _, h =>
      have : a ≠ 0x10 ∨ b ≠ 0x81 := by
        by_cases ha : a = 0x10
        · right; intro hb; exact h (by simp [ha, hb])
        · left; exact ha
      simp [this]

/-- Every buffer is either refused at the header or has a complete Format-1 header. -/
theorem header_cases (d : List UInt8) :
    (d.length < 12 ∨ d.take 2 ≠ [0x10, 0x81]) ∨
    ∃ t0 t1 s0 s1 s2 d0 d1 d2 e b body,
      d = 0x10 :: 0x81 :: t0 :: t1 :: s0 :: s1 :: s2 :: d0 :: d1 :: d2 :: e :: b :: body := by
  by_cases hl : d.length < 12
  · exact Or.inl (Or.inl hl)
  by_cases ht : d.take 2 = [0x10, 0x81]
  · right
    have h12 : ∃ a0 a1 t0 t1 s0 s1 s2 d0 d1 d2 e b body,
        d = a0 :: a1 :: t0 :: t1 :: s0 :: s1 :: s2 :: d0 :: d1 :: d2 :: e :: b :: body := by
      have hc : ∀ (l : List UInt8) (n : Nat), n + 1 ≤ l.length →
          ∃ x xs, l = x :: xs ∧ n ≤ xs.length := by
        intro l n hl
        cases l with
        | nil => simp at hl
        | cons x xs => exact ⟨x, xs, rfl, by simpa using hl⟩
      obtain ⟨a0, l, rfl, g0⟩ := hc d 11 (by omega)
      obtain ⟨a1, l, rfl, g1⟩ := hc l 10 g0
      obtain ⟨a2, l, rfl, g2⟩ := hc l 9 g1
      obtain ⟨a3, l, rfl, g3⟩ := hc l 8 g2
      obtain ⟨a4, l, rfl, g4⟩ := hc l 7 g3
      obtain ⟨a5, l, rfl, g5⟩ := hc l 6 g4
      obtain ⟨a6, l, rfl, g6⟩ := hc l 5 g5
      obtain ⟨a7, l, rfl, g7⟩ := hc l 4 g6
      obtain ⟨a8, l, rfl, g8⟩ := hc l 3 g7
      obtain ⟨a9, l, rfl, g9⟩ := hc l 2 g8
      obtain ⟨a10, l, rfl, g10⟩ := hc l 1 g9
      obtain ⟨a11, l, rfl, g11⟩ := hc l 0 g10
      exact ⟨_, _, _, _, _, _, _, _, _, _, _, _, _, rfl⟩
    obtain ⟨a0, a1, t0, t1, s0, s1, s2, d0, d1, d2, e, b, body, rfl⟩ := h12
    simp at ht
    exact ⟨t0, t1, s0, s1, s2, d0, d1, d2, e, b, body, by simp [ht]⟩
  · exact Or.inl (Or.inr ht)

theorem withHeader_frame (m : Message) (t0 t1 s0 s1 s2 d0 d1 d2 e : UInt8) :
    let mh := withHeader m t0 t1 s0 s1 s2 d0 d1 d2 e
    be 2 mh.tid.toNat = [t0, t1] ∧ be 3 mh.seoj.toNat = [s0, s1, s2] ∧
      be 3 mh.deoj.toNat = [d0, d1, d2] := by
  refine ⟨?_, ?_, ?_⟩
  · rw [tid_toNat]; exact be2_tid _ _
  · rw [seoj, objectCode_toNat]; exact be3_eoj _ _ _
  · rw [deoj, objectCode_toNat]; exact be3_eoj _ _ _

theorem tid_lt (m : Message) : m.tid.toNat < 2 ^ 16 := m.tid.toNat_lt

theorem objectCode_lt (e : UInt8 × UInt8 × UInt8) : (toObjectCode e).toNat < 2 ^ 24 := by
  rw [objectCode_toNat]
  have := e.1.toNat_lt; have := e.2.1.toNat_lt; have := e.2.2.toNat_lt
  omega

/-- Header bytes of a message in terms of its accessors. -/
theorem header_bytes (m : Message) :
    be 2 m.tid.toNat ++ be 3 m.seoj.toNat ++ be 3 m.deoj.toNat =
      [m.tidBytes.1, m.tidBytes.2, m.seojBytes.1, m.seojBytes.2.1, m.seojBytes.2.2,
       m.deojBytes.1, m.deojBytes.2.1, m.deojBytes.2.2] := by
  rw [tid_toNat, seoj, deoj, objectCode_toNat, objectCode_toNat, be2_tid, be3_eoj, be3_eoj]
  rfl

theorem isFormat1_ehd {m : Message} (h : m.isFormat1 = true) : m.ehd = (0x10, 0x81) := by
  unfold isFormat1 at h
  split at h
  · simp at h
  · rename_i hn
    simp only [not_or, ne_eq, Decidable.not_not] at hn
    exact Prod.ext hn.1 hn.2

/-- The encoder, in terms of the spec-level list encoder. -/
theorem bytes_eq (m : Message) (hf : m.isFormat1 = true) :
    m.bytes = [0x10, 0x81] ++ be 2 m.tid.toNat ++ be 3 m.seoj.toNat ++ be 3 m.deoj.toNat ++
      [m.esvByte] ++ (if m.esvByte = 0x6E ∨ m.esvByte = 0x7E
        then encList m.setProperties ++ encList m.getProperties else encList m.properties) := by
  have hh := header_bytes m
  simp only [List.append_assoc] at hh ⊢
  have : ∀ (x y : List UInt8), be 2 m.tid.toNat ++ (be 3 m.seoj.toNat ++ (be 3 m.deoj.toNat ++ x))
      = (be 2 m.tid.toNat ++ (be 3 m.seoj.toNat ++ (be 3 m.deoj.toNat))) ++ x := by simp
  rw [this _ [], hh]
  simp only [bytes, isFormat1_ehd hf, esv]
  by_cases h6 : m.esvByte = 0x6E
  · simp [h6, (fromU8_6E _).mpr rfl, addPropertyBytes_eq]
  by_cases h7 : m.esvByte = 0x7E
  · simp [h7, (fromU8_7E _).mpr rfl, addPropertyBytes_eq]
  have h6' := fun h => h6 ((fromU8_6E _).mp h)
  have h7' := fun h => h7 ((fromU8_7E _).mp h)
  simp only [h6, h7, or_self, if_false]
  simp [addPropertyBytes_eq]

theorem isWriteReadByte_iff (b : UInt8) :
    isWriteReadByte b = true ↔ (b = 0x6E ∨ b = 0x7E ∨ b = 0x5E) := by
  simp [isWriteReadByte, or_assoc]

/-- For services other than 0x5E the encoder produces the frame of the message. -/
theorem bytes_eq_encode (m : Message) (hf : m.isFormat1 = true) (h5 : m.esvByte ≠ 0x5E) :
    m.bytes = (frameOf m).encode := by
  rw [bytes_eq m hf]
  by_cases h : m.esvByte = 0x6E ∨ m.esvByte = 0x7E
  · have hw : isWriteReadByte m.esvByte = true := by
      rw [isWriteReadByte_iff]; rcases h with h | h <;> simp [h]
    simp [h, Frame.encode, frameOf, hw, Body.encode]
  · have hw : isWriteReadByte m.esvByte = false := by
      simp only [not_or] at h
      simp [isWriteReadByte, h, h5]
    simp [h, Frame.encode, frameOf, hw, Body.encode]

/-- Splitting a spec header into its bytes. -/
theorem header_split (tid seoj deoj : Nat) (esv : UInt8) (x : List UInt8) :
    ∃ t0 t1 s0 s1 s2 d0 d1 d2,
      [0x10, 0x81] ++ be 2 tid ++ be 3 seoj ++ be 3 deoj ++ [esv] ++ x =
        0x10 :: 0x81 :: t0 :: t1 :: s0 :: s1 :: s2 :: d0 :: d1 :: d2 :: esv :: x ∧
      be 2 tid = [t0, t1] ∧ be 3 seoj = [s0, s1, s2] ∧ be 3 deoj = [d0, d1, d2] := by
  rw [be2_eq, be3_eq, be3_eq]
  exact ⟨_, _, _, _, _, _, _, _, by simp, rfl, rfl, rfl⟩

/-- Completeness: an encoded valid frame followed by anything is accepted, and the lists are
appended to those already in the message. -/
theorem parse_complete (m : Message) (f : Frame) (rest : List UInt8) (hv : f.Valid) :
    ∃ m', parse m (f.encode ++ rest) = Res.ok (true, m') ∧
      m'.isFormat1 = true ∧ m'.tid.toNat = f.tid ∧ m'.seoj.toNat = f.seoj ∧
      m'.deoj.toNat = f.deoj ∧ m'.esvByte = f.esv ∧ m'.sender = m.sender ∧
      match f.body with
      | .single ps => m'.properties = m.properties ++ ps ∧ m'.setProperties = m.setProperties ∧
          m'.getProperties = m.getProperties
      | .setGet s g => m'.properties = m.properties ∧ m'.setProperties = m.setProperties ++ s ∧
          m'.getProperties = m.getProperties ++ g := by
  obtain ⟨ht, hs, hd, hb⟩ := hv
  obtain ⟨t0, t1, s0, s1, s2, d0, d1, d2, he, e2, e3, e4⟩ :=
    header_split f.tid f.seoj f.deoj f.esv (f.body.encode ++ rest)
  have henc : f.encode ++ rest =
      0x10 :: 0x81 :: t0 :: t1 :: s0 :: s1 :: s2 :: d0 :: d1 :: d2 :: f.esv :: (f.body.encode ++ rest) := by
    rw [← he]; simp [Frame.encode]
  obtain ⟨w1, w2, w3⟩ := withHeader_frame m t0 t1 s0 s1 s2 d0 d1 d2 f.esv
  have k1 := be2_inj (tid_lt _) ht (w1.trans e2.symm)
  have k2 := be3_inj (objectCode_lt _) hs (w2.trans e3.symm)
  have k3 := be3_inj (objectCode_lt _) hd (w3.trans e4.symm)
  rw [henc]
  cases hbd : f.body with
  | single ps =>
    rw [hbd] at hb
    simp only at hb
    have : Body.encode (.single ps) ++ rest =
        UInt8.ofNat ps.length :: (ps.flatMap encProp ++ rest) := by simp [Body.encode, encList]
    rw [this, parse_cons]
    simp only [hb.1, Bool.false_eq_true, if_false]
    have hc := parsePropertyBytes_complete ps [] rest m.properties hb.2
    simp only [List.nil_append, List.length_nil, encList, List.cons_append] at hc
    rw [hc]
    exact ⟨_, rfl, rfl, k1, k2, k3, rfl, rfl, rfl, rfl, rfl⟩
  | setGet s g =>
    rw [hbd] at hb
    simp only at hb
    have : Body.encode (.setGet s g) ++ rest =
        UInt8.ofNat s.length :: (s.flatMap encProp ++ (encList g ++ rest)) := by
      simp [Body.encode, encList]
    rw [this, parse_cons]
    simp only [hb.1, if_true]
    have hc := parsePropertyBytes_complete s [] (encList g ++ rest) m.setProperties hb.2.1
    simp only [List.nil_append, List.length_nil, encList, List.cons_append] at hc
    have hc2 := parsePropertyBytes_complete g (encList s) rest m.getProperties hb.2.2
    simp only [encList, List.cons_append] at hc2
    simp only [encList, List.cons_append]
    rw [hc]
    simp only [Res.bind_ok, if_true, Nat.zero_add]
    rw [hc2]
    exact ⟨_, rfl, rfl, k1, k2, k3, rfl, rfl, rfl, rfl, rfl⟩

/-- Soundness: whatever is accepted is an encoded valid frame followed by ignored bytes. -/
theorem parse_sound (m m' : Message) (d : List UInt8) (h : parse m d = Res.ok (true, m')) :
    ∃ (f : Frame) (rest : List UInt8), f.Valid ∧ d = f.encode ++ rest ∧
      m'.isFormat1 = true ∧ m'.tid.toNat = f.tid ∧ m'.seoj.toNat = f.seoj ∧
      m'.deoj.toNat = f.deoj ∧ m'.esvByte = f.esv ∧ m'.sender = m.sender ∧
      match f.body with
      | .single ps => m'.properties = m.properties ++ ps ∧ m'.setProperties = m.setProperties ∧
          m'.getProperties = m.getProperties
      | .setGet s g => m'.properties = m.properties ∧ m'.setProperties = m.setProperties ++ s ∧
          m'.getProperties = m.getProperties ++ g := by
  rcases header_cases d with (hs | hb) | ⟨t0, t1, s0, s1, s2, d0, d1, d2, e, b, body, hd⟩
  · obtain ⟨m'', h'⟩ := parse_short m d hs; rw [h'] at h; simp at h
  · obtain ⟨m'', h'⟩ := parse_badHeader m d hb; rw [h'] at h; simp at h
  subst hd
  rw [parse_cons] at h
  obtain ⟨w1, w2, w3⟩ := withHeader_frame m t0 t1 s0 s1 s2 d0 d1 d2 e
  by_cases hw : isWriteReadByte e = true
  · simp only [hw, if_true] at h
    obtain ⟨⟨rb, rp, ro⟩, h1, h⟩ := Res.bind_eq_ok.mp h
    cases rb with
    | false => simp at h
    | true =>
      simp only [if_true] at h
      obtain ⟨⟨rb', rp', ro'⟩, h2, h⟩ := Res.bind_eq_ok.mp h
      simp only [Res.ok.injEq, Prod.mk.injEq] at h
      obtain ⟨hrb, hm⟩ := h
      subst hrb
      obtain ⟨ps, rest, q1, q2, q3, q4, q5⟩ := parsePropertyBytes_sound _ _ _ h1
      obtain ⟨ps', rest', r1, r2, r3, r4, r5⟩ := parsePropertyBytes_sound _ _ _ h2
      let mh := withHeader m t0 t1 s0 s1 s2 d0 d1 d2 e
      refine ⟨⟨mh.tid.toNat, mh.seoj.toNat, mh.deoj.toNat, e, .setGet ps ps'⟩, rest',
        ⟨tid_lt _, objectCode_lt _, objectCode_lt _, hw, q2, r2⟩, ?_, ?_, ?_, ?_, ?_, ?_, ?_, ?_⟩
      · simp only [Frame.encode, mh, w1, w2, w3, Body.encode]
        simp only [List.drop_zero] at q3
        have : rest = encList ps' ++ rest' := by
          rw [q3, q4, Nat.zero_add, List.drop_left] at r3; exact r3
        rw [q3, this]; simp
      all_goals (rw [← hm]; first | rfl | exact ⟨rfl, q1, r1⟩)
  · simp only [hw, Bool.false_eq_true, if_false] at h
    obtain ⟨⟨rb, rp, ro⟩, h1, h⟩ := Res.bind_eq_ok.mp h
    simp only [Res.ok.injEq, Prod.mk.injEq] at h
    obtain ⟨hrb, hm⟩ := h
    subst hrb
    obtain ⟨ps, rest, q1, q2, q3, q4, q5⟩ := parsePropertyBytes_sound _ _ _ h1
    let mh := withHeader m t0 t1 s0 s1 s2 d0 d1 d2 e
    refine ⟨⟨mh.tid.toNat, mh.seoj.toNat, mh.deoj.toNat, e, .single ps⟩, rest,
      ⟨tid_lt _, objectCode_lt _, objectCode_lt _, by simpa using hw, q2⟩, ?_, ?_, ?_, ?_, ?_, ?_, ?_, ?_⟩
    · simp only [Frame.encode, mh, w1, w2, w3, Body.encode]
      simp only [List.drop_zero] at q3
      rw [q3]; simp
    all_goals (rw [← hm]; first | rfl | exact ⟨q1, rfl, rfl⟩)

/-- When does the decoder panic: the first list of a write-read frame uses up all bytes. -/
theorem parse_panic_iff (m : Message) (d : List UInt8) :
    parse m d = Res.panic ↔
      ∃ tid seoj deoj esv s, tid < 2 ^ 16 ∧ seoj < 2 ^ 24 ∧ deoj < 2 ^ 24 ∧
        isWriteReadByte esv = true ∧ InRange s ∧
        d = [0x10, 0x81] ++ be 2 tid ++ be 3 seoj ++ be 3 deoj ++ [esv] ++ encList s := by
  constructor
  · intro h
    rcases header_cases d with (hs | hb) | ⟨t0, t1, s0, s1, s2, d0, d1, d2, e, b, body, hd⟩
    · obtain ⟨m'', h'⟩ := parse_short m d hs; rw [h'] at h; simp at h
    · obtain ⟨m'', h'⟩ := parse_badHeader m d hb; rw [h'] at h; simp at h
    subst hd
    rw [parse_cons] at h
    obtain ⟨w1, w2, w3⟩ := withHeader_frame m t0 t1 s0 s1 s2 d0 d1 d2 e
    by_cases hw : isWriteReadByte e = true
    · simp only [hw, if_true] at h
      cases h1 : parsePropertyBytes m.setProperties (b :: body) 0 with
      | panic => rw [parsePropertyBytes_panic_iff] at h1; simp at h1
      | ok r =>
        obtain ⟨rb, rp, ro⟩ := r
        rw [h1] at h
        cases rb with
        | false => simp at h
        | true =>
          simp only [Res.bind_ok, if_true] at h
          cases h2 : parsePropertyBytes m.getProperties (b :: body) ro with
          | ok r => rw [h2] at h; simp at h
          | panic =>
            rw [parsePropertyBytes_panic_iff] at h2
            obtain ⟨ps, rest, q1, q2, q3, q4, q5⟩ := parsePropertyBytes_sound _ _ _ h1
            let mh := withHeader m t0 t1 s0 s1 s2 d0 d1 d2 e
            refine ⟨mh.tid.toNat, mh.seoj.toNat, mh.deoj.toNat, e, ps, tid_lt _, objectCode_lt _,
              objectCode_lt _, hw, q2, ?_⟩
            simp only [mh, w1, w2, w3]
            simp only [List.drop_zero] at q3
            have : rest = [] := by
              have hl := congrArg List.length q3
              simp only [List.length_append] at hl
              exact List.eq_nil_of_length_eq_zero (by omega)
            rw [q3, this]; simp
    · simp only [hw, Bool.false_eq_true, if_false] at h
      cases h1 : parsePropertyBytes m.properties (b :: body) 0 with
      | panic => rw [parsePropertyBytes_panic_iff] at h1; simp at h1
      | ok r => rw [h1] at h; simp at h
  · rintro ⟨tid, seoj, deoj, esv, s, ht, hs, hd, hw, hr, rfl⟩
    obtain ⟨t0, t1, s0, s1, s2, d0, d1, d2, he, -⟩ := header_split tid seoj deoj esv (encList s)
    rw [he, encList, parse_cons]
    simp only [hw, if_true]
    have hc := parsePropertyBytes_complete s [] [] m.setProperties hr
    simp only [List.nil_append, List.length_nil, List.append_nil, encList] at hc
    rw [hc]
    simp only [Res.bind_ok, if_true]
    rw [(parsePropertyBytes_panic_iff _ _ _).mpr (by simp)]
    rfl

end Message
end Uecho
