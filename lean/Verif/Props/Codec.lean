import Verif.Lemmas.Codec
/-!
# Properties of the wire codec: C01–C09, C52, C56

The specification is `Verif/Spec/Wire.lean`. A message is quantified over without restriction except
`isFormat1` (the public predicate, true of every message built by `Message::new` and the setters and
of every successfully decoded one) and the size bounds of the wire format.
-/
namespace Uecho
open Spec

/-! ## Example messages used to show that hypotheses are satisfiable -/

/-- A read request for two properties. -/
def exRead : Message :=
  ((((Message.new.setTid 0x1234).setSeoj 0x05FF01).setDeoj 0x013001).setEsv .ReadRequest
    |>.addProperty ⟨0x80, []⟩).addProperty ⟨0xB0, [1, 2, 3]⟩

/-- A write-read request. -/
def exWR : Message :=
  ((((Message.new.setTid 7).setSeoj 0x05FF01).setDeoj 0x013001).setEsv .WriteReadRequest
    |>.addPropertySet ⟨0x80, [0x30]⟩).addPropertyGet ⟨0xB0, []⟩

/-- A write-read error response as the code builds it (properties in the single list). -/
def exWRErr : Message :=
  (((Message.new.setTid 7).setSeoj 0x05FF01).setDeoj 0x013001).setEsv .WriteReadRequestError
    |>.addProperty ⟨0x80, [0x30]⟩

/-- All three lists of a message fit the format. -/
def SizesOk (m : Message) : Prop :=
  InRange m.properties ∧ InRange m.setProperties ∧ InRange m.getProperties

instance (m : Message) : Decidable (SizesOk m) := by unfold SizesOk; infer_instance

theorem frameOf_valid (m : Message) (hs : SizesOk m) : (frameOf m).Valid := by
  refine ⟨m.tid_lt, Message.objectCode_lt _, Message.objectCode_lt _, ?_⟩
  by_cases hw : isWriteReadByte m.esvByte = true
  · simp only [frameOf, hw, if_true]; exact ⟨trivial, hs.2.1, hs.2.2⟩
  · simp only [frameOf, hw, Bool.false_eq_true, if_false]; exact ⟨by simpa using hw, hs.1⟩

/-! ## C01 -/

/-- C01 (all services but 0x5E): decoding the encoding of an in-range message into a fresh message
succeeds and gives back TID, SEOJ, DEOJ, service byte and the property lists of that service; the
lists the service does not use are empty. Missing for the full property: service 0x5E, for which
`C01_fails_for_0x5E` shows that decoding *always* panics. -/
theorem C01_encode_decode_partial (m : Message) (hf : m.isFormat1 = true) (hs : SizesOk m)
    (h5 : m.esvByte ≠ 0x5E) :
    ∃ m', Message.parse Message.new m.bytes = .ok (true, m') ∧
      m'.tid = m.tid ∧ m'.seoj = m.seoj ∧ m'.deoj = m.deoj ∧ m'.esvByte = m.esvByte ∧
      m'.esv = m.esv ∧
      (isWriteReadByte m.esvByte = false →
        m'.properties = m.properties ∧ m'.setProperties = [] ∧ m'.getProperties = []) ∧
      (isWriteReadByte m.esvByte = true →
        m'.properties = [] ∧ m'.setProperties = m.setProperties ∧
        m'.getProperties = m.getProperties) := by
  obtain ⟨m', h1, _, h2, h3, h4, h5', _, h7⟩ :=
    Message.parse_complete Message.new (frameOf m) [] (frameOf_valid m hs)
  rw [List.append_nil, ← Message.bytes_eq_encode m hf h5] at h1
  refine ⟨m', h1, UInt16.toNat.inj h2, UInt32.toNat.inj h3, UInt32.toNat.inj h4, h5', ?_, ?_, ?_⟩
  · simp only [Message.esv, h5']; rfl
  · intro hw
    simp only [frameOf, hw, Bool.false_eq_true, if_false] at h7
    simpa [Message.new] using h7
  · intro hw
    simp only [frameOf, hw, if_true] at h7
    simpa [Message.new] using h7

/-- C01 is false for write-read error responses (ESV 0x5E): the encoder writes the single property
list, the decoder expects two lists, so decoding *every* in-range 0x5E message panics. -/
theorem C01_fails_for_0x5E (m : Message) (hf : m.isFormat1 = true) (hs : SizesOk m)
    (h5 : m.esvByte = 0x5E) : Message.parse Message.new m.bytes = .panic := by
  rw [Message.parse_panic_iff, Message.bytes_eq m hf]
  refine ⟨m.tid.toNat, m.seoj.toNat, m.deoj.toNat, m.esvByte, m.properties, m.tid_lt,
    Message.objectCode_lt _, Message.objectCode_lt _,
    (Message.isWriteReadByte_iff _).mpr (Or.inr (Or.inr h5)), hs.1, ?_⟩
  simp [h5]

example : exRead.isFormat1 = true ∧ SizesOk exRead ∧ exRead.esvByte ≠ 0x5E ∧
    exRead.properties.length = 2 := by decide
example : exWR.isFormat1 = true ∧ SizesOk exWR ∧ exWR.esvByte ≠ 0x5E ∧
    isWriteReadByte exWR.esvByte = true := by decide
example : exWRErr.isFormat1 = true ∧ SizesOk exWRErr ∧ exWRErr.esvByte = 0x5E := by decide

/-! ## C02 -/

/-- C02 (all services but 0x5E): re-encoding an accepted datagram reproduces it up to the ignored
trailing bytes. -/
theorem C02_decode_encode_partial (d : List UInt8) (m : Message)
    (h : Message.parse Message.new d = .ok (true, m)) (h5 : m.esvByte ≠ 0x5E) :
    ∃ trailing, d = m.bytes ++ trailing := by
  obtain ⟨f, rest, hv, hd, hf, h2, h3, h4, h5', _, h7⟩ := Message.parse_sound _ _ _ h
  refine ⟨rest, ?_⟩
  rw [Message.bytes_eq_encode m hf h5, hd]
  have : frameOf m = f := by
    obtain ⟨_, _, _, hb⟩ := hv
    cases f with
    | mk t s dd e b =>
      simp only at h2 h3 h4 h5' h7 hb
      subst h2 h3 h4 h5'
      cases b with
      | single ps =>
        simp only [Message.new, List.nil_append] at h7
        simp [frameOf, hb.1, h7.1]
      | setGet s g =>
        simp only [Message.new, List.nil_append] at h7
        simp [frameOf, hb.1, h7.2.1, h7.2.2]
  rw [this]

/-- C02, information level, all services: an accepted datagram is the standard encoding of what the
accessors of the decoded message report, plus ignored trailing bytes. -/
theorem C02_nothing_lost (d : List UInt8) (m : Message)
    (h : Message.parse Message.new d = .ok (true, m)) :
    (frameOf m).Valid ∧ ∃ trailing, d = (frameOf m).encode ++ trailing := by
  obtain ⟨f, rest, hv, hd, hf, h2, h3, h4, h5', _, h7⟩ := Message.parse_sound _ _ _ h
  have : frameOf m = f := by
    have hb := hv.2.2.2
    cases f with
    | mk t s dd e b =>
      simp only at h2 h3 h4 h5' h7 hb
      subst h2 h3 h4 h5'
      cases b with
      | single ps =>
        simp only [Message.new, List.nil_append] at h7
        simp [frameOf, hb.1, h7.1]
      | setGet s g =>
        simp only [Message.new, List.nil_append] at h7
        simp [frameOf, hb.1, h7.2.1, h7.2.2]
  rw [this]; exact ⟨hv, rest, hd⟩

/-- A received write-read error response that carries one property in each list. -/
def exWRErrDatagram : List UInt8 :=
  [0x10, 0x81, 0, 7, 5, 0xFF, 1, 1, 0x30, 1, 0x5E, 1, 0x80, 1, 0x30, 1, 0xB0, 0]

/-- C02 is false for service 0x5E: both property lists are dropped on re-encoding. -/
theorem C02_fails_for_0x5E :
    ∃ d m, Message.parse Message.new d = .ok (true, m) ∧ ¬ ∃ trailing, d = m.bytes ++ trailing := by
  refine ⟨exWRErrDatagram, _, rfl, ?_⟩
  rintro ⟨t, ht⟩
  have := congrArg (fun l => l.take 12) ht
  revert this
  simp [exWRErrDatagram, Message.bytes, Message.esv, Message.new, Message.addPropertyBytes,
    show ESV.fromU8 0x5E = .WriteReadRequestError from rfl]

example : ∃ m, Message.parse Message.new (exRead.bytes ++ [9, 9]) = .ok (true, m) ∧
    m.esvByte ≠ 0x5E := ⟨_, rfl, by decide⟩

/-! ## C03 -/

/-- C03 is false: exact characterisation of the datagrams on which the decoder panics — a write-read
frame (0x6E, 0x7E or 0x5E) that ends right after its first property list. -/
theorem C03_panic_characterisation (m : Message) (d : List UInt8) :
    Message.parse m d = .panic ↔
      ∃ tid seoj deoj esv s, tid < 2 ^ 16 ∧ seoj < 2 ^ 24 ∧ deoj < 2 ^ 24 ∧
        isWriteReadByte esv = true ∧ InRange s ∧
        d = [0x10, 0x81] ++ be 2 tid ++ be 3 seoj ++ be 3 deoj ++ [esv] ++ encList s :=
  Message.parse_panic_iff m d

/-- C03 is false: a 12-byte datagram makes the decoder panic. -/
theorem C03_fails :
    Message.fromBytes [0x10, 0x81, 0, 1, 5, 0xFF, 1, 1, 0x30, 1, 0x6E, 0] = .panic := rfl

/-- C03 (partial): the decoder returns on every byte string whose service byte (offset 10) is not a
write-read service, and on every byte string shorter than 12 bytes; missing: the write-read frames
of `C03_panic_characterisation`, where it does panic. -/
theorem C03_no_panic_partial (m : Message) (d : List UInt8)
    (h : d.length < 12 ∨ ∀ e, d[10]? = some e → isWriteReadByte e = false) :
    ∃ b m', Message.parse m d = .ok (b, m') := by
  cases hp : Message.parse m d with
  | ok r => exact ⟨r.1, r.2, rfl⟩
  | panic =>
    exfalso
    obtain ⟨tid, seoj, deoj, esv, s, _, _, _, hw, _, hd⟩ := (Message.parse_panic_iff m d).mp hp
    obtain ⟨t0, t1, s0, s1, s2, d0, d1, d2, he, -⟩ :=
      Message.header_split tid seoj deoj esv (encList s)
    rw [he] at hd
    rcases h with h | h
    · rw [hd] at h; simp [encList] at h; omega
    · have := h esv (by rw [hd]; rfl)
      rw [hw] at this; simp at this

/-- C03 for `Message::from_bytes`: it panics exactly when `parse` does. -/
theorem C03_fromBytes (d : List UInt8) :
    Message.fromBytes d = .panic ↔ Message.parse Message.new d = .panic := by
  unfold Message.fromBytes
  cases Message.parse Message.new d <;> simp

example : ∃ e, exRead.bytes[10]? = some e ∧ isWriteReadByte e = false ∧
    12 ≤ exRead.bytes.length := ⟨0x62, by decide⟩

/-! ## C04 -/

/-- C04: the decoder accepts `d` with contents `f` exactly when `f` is a valid frame and `d` is its
standard encoding followed by arbitrary bytes. -/
theorem C04_accepts_exactly_frames (d : List UInt8) (f : Frame) :
    (∃ m, Message.parse Message.new d = .ok (true, m) ∧ frameOf m = f) ↔
      f.Valid ∧ ∃ trailing, d = f.encode ++ trailing := by
  constructor
  · rintro ⟨m, h, rfl⟩
    exact C02_nothing_lost d m h
  · rintro ⟨hv, rest, rfl⟩
    obtain ⟨m', h1, _, h2, h3, h4, h5', _, h7⟩ := Message.parse_complete Message.new f rest hv
    refine ⟨m', h1, ?_⟩
    obtain ⟨_, _, _, hb⟩ := hv
    cases f with
    | mk t s dd e b =>
      simp only at h2 h3 h4 h5' h7 hb
      subst h2 h3 h4 h5'
      cases b with
      | single ps =>
        simp only [Message.new, List.nil_append] at h7
        simp [frameOf, hb.1, h7.1]
      | setGet s g =>
        simp only [Message.new, List.nil_append] at h7
        simp [frameOf, hb.1, h7.2.1, h7.2.2]

example : (⟨1, 0x05FF01, 0x013001, 0x6E, .setGet [⟨0x80, [1]⟩] [⟨0xB0, []⟩]⟩ : Frame).Valid := by
  decide

/-! ## C05, C06: the format is prefix-free -/

/-- Property lists are self-delimiting. -/
theorem flatMap_encProp_inj (ps qs : List WProperty) (x y : List UInt8) (hl : ps.length = qs.length)
    (hp : ∀ p ∈ ps, p.data.length ≤ 255) (hq : ∀ p ∈ qs, p.data.length ≤ 255)
    (h : ps.flatMap encProp ++ x = qs.flatMap encProp ++ y) : ps = qs ∧ x = y := by
  induction ps generalizing qs with
  | nil =>
    cases qs with
    | nil => simpa using h
    | cons q qs => simp at hl
  | cons p ps ih =>
    cases qs with
    | nil => simp at hl
    | cons q qs =>
      obtain ⟨pc, pd⟩ := p
      obtain ⟨qc, qd⟩ := q
      simp only [List.flatMap_cons, encProp, List.append_assoc, List.cons_append, List.nil_append,
        List.cons.injEq] at h
      obtain ⟨h1, h2, h3⟩ := h
      have hpd : pd.length ≤ 255 := hp ⟨pc, pd⟩ (by simp)
      have hqd : qd.length ≤ 255 := hq ⟨qc, qd⟩ (by simp)
      have hlen : pd.length = qd.length := by
        have := congrArg UInt8.toNat h2
        rwa [toNat_ofNat_le hpd, toNat_ofNat_le hqd] at this
      obtain ⟨h4, h5⟩ := List.append_inj h3 hlen
      obtain ⟨h6, h7⟩ := ih qs (by simpa using hl) (fun r hr => hp r (by simp [hr]))
        (fun r hr => hq r (by simp [hr])) h5
      subst h1 h4 h6
      exact ⟨rfl, h7⟩

theorem encList_inj (ps qs : List WProperty) (x y : List UInt8) (hp : InRange ps) (hq : InRange qs)
    (h : encList ps ++ x = encList qs ++ y) : ps = qs ∧ x = y := by
  simp only [encList, List.cons_append, List.cons.injEq] at h
  have hl : ps.length = qs.length := by
    have := congrArg UInt8.toNat h.1
    rwa [toNat_ofNat_le hp.1, toNat_ofNat_le hq.1] at this
  exact flatMap_encProp_inj ps qs x y hl hp.2 hq.2 h.2

/-- C06, for frames: equal encodings (even followed by different rests) come from equal frames. -/
theorem C06_frame_unambiguous (f g : Frame) (x y : List UInt8) (hf : f.Valid) (hg : g.Valid)
    (h : f.encode ++ x = g.encode ++ y) : f = g ∧ x = y := by
  obtain ⟨ft, fs, fd, fb⟩ := hf
  obtain ⟨gt, gs, gd, gb⟩ := hg
  cases f with
  | mk t s d e b =>
  cases g with
  | mk t' s' d' e' b' =>
  simp only at ft fs fd fb gt gs gd gb
  simp only [Frame.encode, List.append_assoc] at h
  replace h := List.append_cancel_left h
  obtain ⟨h1, ha⟩ := List.append_inj h (by simp [be_length])
  obtain ⟨h2, hb⟩ := List.append_inj ha (by simp [be_length])
  obtain ⟨h3, hc⟩ := List.append_inj hb (by simp [be_length])
  obtain ⟨h4, hd⟩ := List.append_inj hc (by simp)
  clear h ha hb hc
  replace h1 := be2_inj ft gt h1
  replace h2 := be3_inj fs gs h2
  replace h3 := be3_inj fd gd h3
  simp only [List.cons.injEq, and_true] at h4
  subst h1 h2 h3 h4
  cases b with
  | single ps =>
    cases b' with
    | single qs =>
      obtain ⟨h5, h6⟩ := encList_inj ps qs x y fb.2 gb.2 hd
      subst h5; exact ⟨rfl, h6⟩
    | setGet s g => have := fb.1.symm.trans gb.1; simp at this
  | setGet s1 g1 =>
    cases b' with
    | single qs => have := gb.1.symm.trans fb.1; simp at this
    | setGet s2 g2 =>
      simp only [Body.encode, List.append_assoc] at hd
      obtain ⟨h5, h6⟩ := encList_inj s1 s2 _ _ fb.2.1 gb.2.1 hd
      obtain ⟨h7, h8⟩ := encList_inj g1 g2 _ _ fb.2.2 gb.2.2 h6
      subst h5 h7; exact ⟨rfl, h8⟩

/-- C05: no proper prefix of a standard frame is accepted, whatever the previous contents of the
receiving message. -/
theorem C05_truncated_frame_rejected (m : Message) (f : Frame) (hv : f.Valid) (d : List UInt8)
    (hd : ProperPrefix d f.encode) : ¬ ∃ m', Message.parse m d = .ok (true, m') := by
  rintro ⟨m', h⟩
  obtain ⟨t, ht, he⟩ := hd
  obtain ⟨g, rest, gv, hg, _⟩ := Message.parse_sound _ _ _ h
  rw [hg, List.append_assoc] at he
  have := (C06_frame_unambiguous f g [] (rest ++ t) hv gv (by simpa using he)).2
  have := congrArg List.length this
  simp only [List.length_nil, List.length_append] at this
  exact ht (List.eq_nil_of_length_eq_zero (by omega))

/-- The first two bytes of an encoding are the header fields, whatever they are. -/
theorem Message.bytes_header (m : Message) :
    m.bytes = m.ehd.1 :: m.ehd.2 :: ({ m with ehd := (0x10, 0x81) } : Message).bytes.drop 2 := by
  unfold Message.bytes
  have he : ({ m with ehd := (0x10, 0x81) } : Message).esv = m.esv := rfl
  simp only [he, Message.addPropertyBytes_eq]
  split <;> rfl

/-- A message read with a header that is not that of Format 1 is rejected. -/
theorem Message.parse_other_header (m₀ : Message) (x y : UInt8) (d : List UInt8) (h : ¬ (x = 0x10 ∧ y = 0x81)) :
    ¬ ∃ m', Message.parse m₀ (x :: y :: d) = .ok (true, m') := by
  rintro ⟨m', hm⟩
  have hp : ∀ r, Message.parseHeader m₀ (x :: y :: d) = .ok r → r.1 = true → r.2.isFormat1 = false := by
    intro r hr h1
    match d, hr with
    | [], hr => simp [Message.parseHeader] at hr; subst hr; simp at h1
    | [_], hr => simp [Message.parseHeader] at hr; subst hr; simp at h1
    | [_, _], hr => simp [Message.parseHeader] at hr; subst hr; simp at h1
    | a :: b :: c :: d, hr =>
      simp [Message.parseHeader, index] at hr
      subst hr
      simp only [Message.isFormat1]
      by_cases h0 : x = 0x10
      · rw [if_pos (Or.inr (fun e => h ⟨h0, e⟩))]
      · rw [if_pos (Or.inl h0)]
  unfold Message.parse at hm
  obtain ⟨r, hr, hm⟩ := Res.bind_eq_ok.mp hm
  cases h1 : r.1 with
  | false => simp [h1] at hm
  | true => simp [h1, hp r hr h1] at hm

/-- C05: no proper prefix of the encoding of an in-range message is accepted (all services, and all headers: a message
into which a datagram with a foreign header was read keeps that header). -/
theorem C05_truncated_message_rejected (m₀ m : Message) (hs : SizesOk m)
    (d : List UInt8) (hd : ProperPrefix d m.bytes) :
    ¬ ∃ m', Message.parse m₀ d = .ok (true, m') := by
  by_cases hf : m.isFormat1 = true
  · by_cases h5 : m.esvByte = 0x5E
    · obtain ⟨t, ht, he⟩ := hd
      have hv : (⟨m.tid.toNat, m.seoj.toNat, m.deoj.toNat, 0x5E, .setGet m.properties []⟩ : Frame).Valid :=
        ⟨m.tid_lt, Message.objectCode_lt _, Message.objectCode_lt _, rfl, hs.1, by decide⟩
      refine C05_truncated_frame_rejected m₀ _ hv d ⟨t ++ encList [], by simp [encList], ?_⟩
      have := Message.bytes_eq m hf
      rw [he] at this
      simp only [h5, show ¬ ((0x5E : UInt8) = 0x6E ∨ (0x5E : UInt8) = 0x7E) by decide, if_false] at this
      rw [← List.append_assoc, this]
      simp [Frame.encode, Body.encode]
    · rw [Message.bytes_eq_encode m hf h5] at hd
      exact C05_truncated_frame_rejected m₀ _ (frameOf_valid m hs) d hd
  · have hb : ∃ tl, m.bytes = m.ehd.1 :: m.ehd.2 :: tl := ⟨_, Message.bytes_header m⟩
    obtain ⟨t, _, he⟩ := hd
    obtain ⟨tl, hb⟩ := hb
    rw [hb] at he
    match d, he with
    | [], _ => rintro ⟨m', h⟩; simp [Message.parse, Message.parseHeader] at h
    | [_], _ => rintro ⟨m', h⟩; simp [Message.parse, Message.parseHeader] at h
    | x :: y :: d, he =>
      simp only [List.cons_append, List.cons.injEq] at he
      refine Message.parse_other_header m₀ x y d ?_
      rw [← he.1, ← he.2.1]
      rintro ⟨h0, h1⟩
      exact hf (by simp [Message.isFormat1, h0, h1])

/-- C05: neither is the whole encoding, if the header is not that of Format 1. -/
theorem C05_other_header_rejected (m₀ m : Message) (hf : m.isFormat1 = false) :
    ¬ ∃ m', Message.parse m₀ m.bytes = .ok (true, m') := by
  rw [Message.bytes_header m]
  refine Message.parse_other_header m₀ _ _ _ ?_
  rintro ⟨h0, h1⟩
  simp [Message.isFormat1, h0, h1] at hf

example : ProperPrefix (exRead.bytes.take 14) exRead.bytes :=
  ⟨exRead.bytes.drop 14, by decide, (List.take_append_drop 14 _).symm⟩

/-- `C06_encoding_unambiguous` for the Format-1 header. -/
theorem Message.bytes_inj (m n : Message) (hm : m.isFormat1 = true) (hn : n.isFormat1 = true)
    (sm : SizesOk m) (sn : SizesOk n) (x : List UInt8) (h : m.bytes ++ x = n.bytes) :
    x = [] ∧ m.tid = n.tid ∧ m.seoj = n.seoj ∧ m.deoj = n.deoj ∧ m.esvByte = n.esvByte ∧
    (m.esvByte = 0x6E ∨ m.esvByte = 0x7E →
      m.setProperties = n.setProperties ∧ m.getProperties = n.getProperties) ∧
    (m.esvByte ≠ 0x6E → m.esvByte ≠ 0x7E → m.properties = n.properties) := by
  rw [Message.bytes_eq m hm, Message.bytes_eq n hn] at h
  simp only [List.append_assoc] at h
  have h := List.append_cancel_left h
  obtain ⟨h1, h⟩ := List.append_inj h (by simp [be_length])
  obtain ⟨h2, h⟩ := List.append_inj h (by simp [be_length])
  obtain ⟨h3, h⟩ := List.append_inj h (by simp [be_length])
  obtain ⟨h4, h⟩ := List.append_inj h (by simp)
  have h1 := UInt16.toNat.inj (be2_inj m.tid_lt n.tid_lt h1)
  have h2 := UInt32.toNat.inj (be3_inj (Message.objectCode_lt _) (Message.objectCode_lt _) h2)
  have h3 := UInt32.toNat.inj (be3_inj (Message.objectCode_lt _) (Message.objectCode_lt _) h3)
  simp only [List.cons.injEq, and_true] at h4
  by_cases hw : m.esvByte = 0x6E ∨ m.esvByte = 0x7E
  · rw [if_pos hw, if_pos (h4 ▸ hw), List.append_assoc] at h
    obtain ⟨h5, h6⟩ := encList_inj _ _ _ _ sm.2.1 sn.2.1 h
    obtain ⟨h7, h8⟩ := encList_inj _ _ x [] sm.2.2 sn.2.2 (by simpa using h6)
    refine ⟨h8, h1, h2, h3, h4, fun _ => ⟨h5, h7⟩, fun a b => ?_⟩
    rcases hw with hw | hw
    · exact absurd hw a
    · exact absurd hw b
  · rw [if_neg hw, if_neg (h4 ▸ hw)] at h
    obtain ⟨h5, h6⟩ := encList_inj _ _ x [] sm.1 sn.1 (by simpa using h)
    exact ⟨h6, h1, h2, h3, h4, fun a => absurd a hw, fun _ _ => h5⟩

/-- C06: two in-range messages one of whose encodings extends the other have equal header, TID, SEOJ, DEOJ
and service byte, equal properties (the lists the service puts on the wire), and the extension is
empty: encodings are unambiguous and prefix-free. -/
theorem C06_encoding_unambiguous (m n : Message) (sm : SizesOk m) (sn : SizesOk n) (x : List UInt8)
    (h : m.bytes ++ x = n.bytes) :
    x = [] ∧ m.ehd = n.ehd ∧ m.tid = n.tid ∧ m.seoj = n.seoj ∧ m.deoj = n.deoj ∧ m.esvByte = n.esvByte ∧
    (m.esvByte = 0x6E ∨ m.esvByte = 0x7E →
      m.setProperties = n.setProperties ∧ m.getProperties = n.getProperties) ∧
    (m.esvByte ≠ 0x6E → m.esvByte ≠ 0x7E → m.properties = n.properties) := by
  have fm := Message.bytes_header ({ m with ehd := (0x10, 0x81) } : Message)
  have fn := Message.bytes_header ({ n with ehd := (0x10, 0x81) } : Message)
  rw [Message.bytes_header m, Message.bytes_header n] at h
  simp only [List.cons_append, List.cons.injEq] at h
  have h' : ({ m with ehd := (0x10, 0x81) } : Message).bytes ++ x = ({ n with ehd := (0x10, 0x81) } : Message).bytes := by
    rw [fm, fn]
    simpa using h.2.2
  have := Message.bytes_inj { m with ehd := (0x10, 0x81) } { n with ehd := (0x10, 0x81) } rfl rfl sm sn x h'
  exact ⟨this.1, Prod.ext h.1 h.2.1, this.2⟩

example : exRead.isFormat1 = true ∧ SizesOk exRead ∧ exRead.bytes ++ [] = exRead.bytes := by decide

/-! ## C07 -/

/-- C07 (all services but 0x5E, everything but the sender): cloning an in-range message does not
panic and preserves TID, EOJs, service and the property lists the service uses. The clone's sender
is always the unspecified address. -/
theorem C07_clone_partial (m : Message) (hf : m.isFormat1 = true) (hs : SizesOk m)
    (h5 : m.esvByte ≠ 0x5E) :
    ∃ m', m.clone = .ok m' ∧ m'.tid = m.tid ∧ m'.seoj = m.seoj ∧ m'.deoj = m.deoj ∧
      m'.esvByte = m.esvByte ∧ frameOf m' = frameOf m ∧ m'.sender = ⟨.v4 0, 0⟩ := by
  obtain ⟨m', h1, _, h2, h3, h4, h5', h6, h7⟩ :=
    Message.parse_complete Message.new (frameOf m) [] (frameOf_valid m hs)
  obtain ⟨m'', g1, g2⟩ := (C04_accepts_exactly_frames ((frameOf m).encode ++ []) (frameOf m)).mpr
    ⟨frameOf_valid m hs, [], rfl⟩
  have : m'' = m' := by rw [h1] at g1; simpa using g1.symm
  subst this
  rw [List.append_nil, ← Message.bytes_eq_encode m hf h5] at h1
  refine ⟨m'', by simp [Message.clone, h1], UInt16.toNat.inj h2, UInt32.toNat.inj h3,
    UInt32.toNat.inj h4, h5', g2, h6⟩

/-- C07 is false: cloning any in-range write-read error message (0x5E) panics. -/
theorem C07_clone_panics_for_0x5E (m : Message) (hf : m.isFormat1 = true) (hs : SizesOk m)
    (h5 : m.esvByte = 0x5E) : m.clone = .panic := by
  simp [Message.clone, C01_fails_for_0x5E m hf hs h5]

/-- C07 is false: the clone loses the sender address of every in-range message. -/
theorem C07_clone_loses_sender (m : Message) (hf : m.isFormat1 = true) (hs : SizesOk m)
    (hsnd : m.sender ≠ ⟨.v4 0, 0⟩) : ∀ m', m.clone = .ok m' → m'.sender ≠ m.sender := by
  intro m' h
  by_cases h5 : m.esvByte = 0x5E
  · rw [C07_clone_panics_for_0x5E m hf hs h5] at h; simp at h
  · obtain ⟨m'', h1, _, _, _, _, _, h2⟩ := C07_clone_partial m hf hs h5
    rw [h1] at h
    have : m'' = m' := by simpa using h
    rw [← this, h2]; exact hsnd.symm

/-- C07 is false: the clone of a message with a foreign header (left in it by a rejected datagram) has neither object
codes nor service nor properties. -/
theorem C07_clone_fails_other_header (m : Message) (hf : m.isFormat1 = false) :
    m.clone = .ok { Message.new with ehd := m.ehd, tidBytes := m.tidBytes } := by
  have hb : ∃ tl, m.bytes = m.ehd.1 :: m.ehd.2 :: m.tidBytes.1 :: m.tidBytes.2 :: m.seojBytes.1 :: tl := by
    unfold Message.bytes
    split <;> exact ⟨_, by simp only [Message.addPropertyBytes_eq, List.cons_append]; rfl⟩
  obtain ⟨tl, hb⟩ := hb
  rw [Message.clone, hb]
  have hf' : ({ Message.new with ehd := (m.ehd.1, m.ehd.2), tidBytes := (m.tidBytes.1, m.tidBytes.2) } :
    Message).isFormat1 = false := hf
  simp [Message.parse, Message.parseHeader, index, hf']

example : ∃ m, Message.fromBytes [0x10, 0x82, 0, 7, 1, 2, 3] = .ok m ∧ m.isFormat1 = false ∧ m.tid = 7 :=
  ⟨_, rfl, by decide, by decide⟩

example : ∃ m : Message, m.isFormat1 = true ∧ SizesOk m ∧ m.esvByte ≠ 0x5E ∧
    m.sender ≠ ⟨.v4 0, 0⟩ :=
  ⟨exRead.setFrom ⟨.v4 0xC0A80001, 3610⟩, by decide⟩

/-! ## C08 -/

/-- Wire-property equality is equality. -/
theorem WProperty.equals_iff (p q : WProperty) : p.equals q = true ↔ p = q := by
  obtain ⟨pc, pd⟩ := p
  obtain ⟨qc, qd⟩ := q
  unfold WProperty.equals WProperty.size
  by_cases hc : pc = qc
  · by_cases hl : pd.length = qd.length
    · simp only [hc, ne_eq, not_true_eq_false, if_false, hl, List.all_eq_true, List.mem_range,
        beq_iff_eq, WProperty.mk.injEq, true_and]
      constructor
      · intro h
        apply List.ext_getElem? 
        intro n
        by_cases hn : n < qd.length
        · exact h n hn
        · rw [List.getElem?_eq_none (by omega), List.getElem?_eq_none (by omega)]
      · rintro rfl n _; rfl
    · simp only [hc, ne_eq, not_true_eq_false, if_false, hl, not_false_eq_true, if_true,
        Bool.false_eq_true, WProperty.mk.injEq, true_and, false_iff]
      rintro rfl; exact hl rfl
  · simp [hc]

/-- What `Message::equals` decides: equality of TID, SEOJ, DEOJ, ESV and of the single property
lists. -/
theorem C08_equals_characterisation (m n : Message) :
    m.equals n = true ↔ (m.tid = n.tid ∧ m.seoj = n.seoj ∧ m.deoj = n.deoj ∧ m.esv = n.esv ∧
      m.properties = n.properties) := by
  unfold Message.equals Message.opc
  by_cases h1 : m.tid = n.tid
  · by_cases h2 : m.seoj = n.seoj
    · by_cases h3 : m.deoj = n.deoj
      · by_cases h4 : m.esv = n.esv
        · simp only [h1, h2, h3, h4, ne_eq, not_true_eq_false, if_false, true_and]
          generalize m.properties = ps
          generalize n.properties = qs
          by_cases hl : ps.length = qs.length
          · simp only [hl, not_true_eq_false, if_false]
            induction ps generalizing qs with
            | nil => cases qs <;> simp_all
            | cons p ps ih =>
              cases qs with
              | nil => simp at hl
              | cons q qs =>
                have := ih qs (by simpa using hl)
                simp only [List.zip_cons_cons, List.all_cons, Bool.and_eq_true, this,
                  WProperty.equals_iff, List.cons.injEq]
          · simp only [hl, not_false_eq_true, if_true, Bool.false_eq_true, false_iff]
            intro h; exact hl (by rw [h])
        · simp [h4]
      · simp [h3]
    · simp [h2]
  · simp [h1]

/-- C08 (partial: services with a single property list): equality of known-service messages is
equality of the information content. -/
theorem C08_equals_partial (m n : Message) (hm : m.esv ≠ .Unknown)
    (hw : isWriteReadByte m.esvByte = false) :
    m.equals n = true ↔ frameOf m = frameOf n := by
  rw [C08_equals_characterisation]
  have hb : m.esv = n.esv ↔ m.esvByte = n.esvByte := by
    have key : ∀ a : UInt8, ESV.fromU8 a ≠ .Unknown → (ESV.fromU8 a).toU8 = a := by
      decide +kernel
    exact ⟨fun h => (key _ hm).symm.trans ((congrArg ESV.toU8 h).trans
      (key _ (fun h' => hm (h.trans h')))), fun h => by simp [Message.esv, h]⟩
  rw [hb]
  constructor
  · rintro ⟨h1, h2, h3, h4, h5⟩
    simp [frameOf, h1, h2, h3, ← h4, hw, h5]
  · intro h
    simp only [frameOf, Frame.mk.injEq] at h
    obtain ⟨h1, h2, h3, h4, h5⟩ := h
    rw [← h4] at h5
    simp only [hw, Bool.false_eq_true, if_false, Body.single.injEq] at h5
    exact ⟨UInt16.toNat.inj h1, UInt32.toNat.inj h2, UInt32.toNat.inj h3, h4, h5⟩

/-- C08 is false: `equals` does not look at the set and get lists of write-read messages. -/
theorem C08_equals_ignores_setget (m : Message) (s g : List WProperty) :
    m.equals { m with setProperties := s, getProperties := g } = true := by
  rw [C08_equals_characterisation]; exact ⟨rfl, rfl, rfl, rfl, rfl⟩

/-- C08 is false: concrete write-read requests with different contents compare equal. -/
theorem C08_fails : ∃ m n : Message, m.equals n = true ∧ frameOf m ≠ frameOf n :=
  ⟨exWR, { exWR with setProperties := [] }, by decide, by decide⟩

example : exRead.esv ≠ .Unknown ∧ isWriteReadByte exRead.esvByte = false ∧
    exRead.equals exRead = true := by decide

/-! ## C09 -/

/-- C09: header accessors. -/
theorem C09_header_accessors (m : Message) (t : UInt16) (c : UInt32) (e : ESV) :
    (m.setTid t).tid = t ∧
    (m.setSeoj c).seoj.toNat = c.toNat % 2 ^ 24 ∧ (m.setDeoj c).deoj.toNat = c.toNat % 2 ^ 24 ∧
    (m.setEsv e).esv = e ∧
    -- frame conditions
    ((m.setTid t).seoj = m.seoj ∧ (m.setTid t).deoj = m.deoj ∧ (m.setTid t).esvByte = m.esvByte) ∧
    ((m.setSeoj c).tid = m.tid ∧ (m.setSeoj c).deoj = m.deoj ∧ (m.setSeoj c).esvByte = m.esvByte) ∧
    ((m.setDeoj c).tid = m.tid ∧ (m.setDeoj c).seoj = m.seoj ∧ (m.setDeoj c).esvByte = m.esvByte) ∧
    ((m.setEsv e).tid = m.tid ∧ (m.setEsv e).seoj = m.seoj ∧ (m.setEsv e).deoj = m.deoj) ∧
    (∀ m' ∈ [m.setTid t, m.setSeoj c, m.setDeoj c, m.setEsv e],
      m'.ehd = m.ehd ∧ m'.properties = m.properties ∧ m'.setProperties = m.setProperties ∧
      m'.getProperties = m.getProperties ∧ m'.sender = m.sender) := by
  refine ⟨?_, ?_, ?_, ?_, ⟨rfl, rfl, rfl⟩, ⟨rfl, rfl, rfl⟩, ⟨rfl, rfl, rfl⟩, ⟨rfl, rfl, rfl⟩, ?_⟩
  · apply UInt16.toNat.inj
    rw [tid_toNat]
    have hlt := t.toNat_lt
    have h1 : ((t &&& 0xFF00) >>> 8).toUInt8.toNat = t.toNat / 256 % 256 := by
      simp only [UInt16.toNat_toUInt8, UInt16.toNat_shiftRight, UInt16.toNat_and, UInt16.reduceToNat]
      have := and_mask_shift t.toNat 8
      simp only [Nat.shiftRight_eq_div_pow] at this ⊢
      simp at this ⊢
      omega
    have h2 : (t &&& 0x00FF).toUInt8.toNat = t.toNat % 256 := by
      simp only [UInt16.toNat_toUInt8, UInt16.toNat_and, UInt16.reduceToNat]
      have := Nat.and_two_pow_sub_one_eq_mod t.toNat 8
      simp at this ⊢
      omega
    simp only [Message.setTid, h1, h2]
    omega
  · rw [Message.seoj, objectCode_toNat]
    simp only [Message.setSeoj, eojBytes_1, eojBytes_2, eojBytes_3]
    omega
  · rw [Message.deoj, objectCode_toNat]
    simp only [Message.setDeoj, eojBytes_1, eojBytes_2, eojBytes_3]
    omega
  · cases e <;> rfl
  · intro m' hm
    simp only [List.mem_cons, List.not_mem_nil, or_false] at hm
    rcases hm with rfl | rfl | rfl | rfl <;> exact ⟨rfl, rfl, rfl, rfl, rfl⟩

/-- C09: `has_tid` says whether the TID is non-zero. -/
theorem C09_hasTid (m : Message) : m.hasTid = true ↔ m.tid ≠ 0 := by
  unfold Message.hasTid; split <;> simp_all

/-! ## C52 -/

/-- C52 is false; the exact damage for too many properties: a message whose single list has `L`
properties (each of at most 255 bytes) is transmitted and decodes to its first `L mod 256`
properties. -/
theorem C52_count_truncated (m : Message) (hf : m.isFormat1 = true)
    (hw : isWriteReadByte m.esvByte = false) (hd : ∀ p ∈ m.properties, p.data.length ≤ 255) :
    ∃ m', Message.parse Message.new m.bytes = .ok (true, m') ∧
      m'.properties = m.properties.take (m.properties.length % 256) := by
  let k := m.properties.length % 256
  have hk : (m.properties.take k).length = k := by
    rw [List.length_take]; have := Nat.mod_le m.properties.length 256; omega
  have hv : (⟨m.tid.toNat, m.seoj.toNat, m.deoj.toNat, m.esvByte, .single (m.properties.take k)⟩ : Frame).Valid := by
    refine ⟨m.tid_lt, Message.objectCode_lt _, Message.objectCode_lt _, hw, ?_, ?_⟩
    · rw [hk]; have : k < 256 := Nat.mod_lt _ (by omega); omega
    · intro p hp; exact hd p (List.mem_of_mem_take hp)
  obtain ⟨m', h1, _, _, _, _, _, _, h7⟩ :=
    Message.parse_complete Message.new _ ((m.properties.drop k).flatMap encProp) hv
  refine ⟨m', ?_, by simpa [Message.new] using h7.1⟩
  rw [← h1]
  congr 1
  rw [Message.bytes_eq_encode m hf (by rintro h; rw [h] at hw; simp [isWriteReadByte] at hw)]
  have e1 : frameOf m = ⟨m.tid.toNat, m.seoj.toNat, m.deoj.toNat, m.esvByte, .single m.properties⟩ := by
    simp [frameOf, hw]
  have e2 : encList m.properties =
      encList (m.properties.take k) ++ (m.properties.drop k).flatMap encProp := by
    have e3 : UInt8.ofNat m.properties.length = UInt8.ofNat (m.properties.take k).length := by
      rw [hk]; apply UInt8.toNat.inj; simp [UInt8.toNat_ofNat', k]
    simp only [encList, e3, List.cons_append, ← List.flatMap_append, List.take_append_drop]
  rw [e1]
  simp only [Frame.encode, Body.encode, e2, List.append_assoc]

/-- C52 is false; the damage for a property that is too long: a message with one property of `n`
bytes decodes to that property cut to its first `n mod 256` bytes. -/
theorem C52_data_truncated (m : Message) (hf : m.isFormat1 = true)
    (hw : isWriteReadByte m.esvByte = false) (c : UInt8) (data : List UInt8)
    (hp : m.properties = [⟨c, data⟩]) :
    ∃ m', Message.parse Message.new m.bytes = .ok (true, m') ∧
      m'.properties = [⟨c, data.take (data.length % 256)⟩] := by
  let k := data.length % 256
  have hk : (data.take k).length = k := by
    rw [List.length_take]; have := Nat.mod_le data.length 256; omega
  have hv : (⟨m.tid.toNat, m.seoj.toNat, m.deoj.toNat, m.esvByte, .single [⟨c, data.take k⟩]⟩ : Frame).Valid := by
    refine ⟨m.tid_lt, Message.objectCode_lt _, Message.objectCode_lt _, hw, by simp, ?_⟩
    intro p hp
    simp only [List.mem_singleton] at hp
    subst hp
    have : k < 256 := Nat.mod_lt _ (by omega)
    simp only [hk]; omega
  obtain ⟨m', h1, _, _, _, _, _, _, h7⟩ := Message.parse_complete Message.new _ (data.drop k) hv
  refine ⟨m', ?_, by simpa [Message.new] using h7.1⟩
  rw [← h1]
  congr 1
  rw [Message.bytes_eq_encode m hf (by rintro h; rw [h] at hw; simp [isWriteReadByte] at hw)]
  have e1 : frameOf m = ⟨m.tid.toNat, m.seoj.toNat, m.deoj.toNat, m.esvByte, .single [⟨c, data⟩]⟩ := by
    simp [frameOf, hw, hp]
  have e2 : encList [⟨c, data⟩] = encList [⟨c, data.take k⟩] ++ data.drop k := by
    have e3 : UInt8.ofNat data.length = UInt8.ofNat (data.take k).length := by
      rw [hk]; apply UInt8.toNat.inj; simp [UInt8.toNat_ofNat', k]
    simp only [encList, encProp, e3, List.flatMap_cons, List.flatMap_nil, List.append_nil,
      List.cons_append, List.nil_append, List.length_singleton, List.take_append_drop]
  rw [e1]
  simp only [Frame.encode, Body.encode, e2, List.append_assoc]

/-- C52 is false: there is a message the encoder silently turns into a different one. -/
theorem C52_fails : ∃ m m' : Message, Message.parse Message.new m.bytes = .ok (true, m') ∧
    m'.properties ≠ m.properties := by
  let m : Message := (Message.new.setEsv .ReadRequest).addProperty ⟨0x80, List.replicate 256 1⟩
  obtain ⟨m', h1, h2⟩ := C52_data_truncated m rfl rfl 0x80 (List.replicate 256 1) rfl
  refine ⟨m, m', h1, ?_⟩
  rw [h2]
  intro h
  have h3 : [(⟨0x80, (List.replicate 256 (1 : UInt8)).take ((List.replicate 256 (1 : UInt8)).length % 256)⟩ : WProperty)]
      = [⟨0x80, List.replicate 256 1⟩] := h
  generalize hl : List.replicate 256 (1 : UInt8) = l at h3
  have hlen : l.length = 256 := by rw [← hl]; exact List.length_replicate
  simp only [List.cons.injEq, WProperty.mk.injEq, and_true, true_and] at h3
  have := congrArg List.length h3
  rw [List.length_take, hlen] at this
  omega

/-- C52 (partial): messages within the limits are not corrupted (this is C01/C02 again, for the
information content). Missing: messages beyond the limits, which are corrupted. -/
theorem C52_in_range_partial (m : Message) (hf : m.isFormat1 = true) (hs : SizesOk m)
    (h5 : m.esvByte ≠ 0x5E) :
    ∃ m', Message.parse Message.new m.bytes = .ok (true, m') ∧ frameOf m' = frameOf m := by
  rw [Message.bytes_eq_encode m hf h5]
  exact (C04_accepts_exactly_frames _ _).mpr ⟨frameOf_valid m hs, [], by simp⟩

/-! ## C56 -/

/-- C56 (partial): the verdict (accept / refuse / panic) of the decoder and all decoded header
fields do not depend on the previous contents of the message; the property lists do: the decoded
lists are *appended* to the previous ones. -/
theorem C56_reuse_partial (m : Message) (d : List UInt8) :
    (Message.parse m d = .panic ↔ Message.parse Message.new d = .panic) ∧
    ((∃ m', Message.parse m d = .ok (true, m')) ↔ ∃ m', Message.parse Message.new d = .ok (true, m')) ∧
    (∀ m₁ m₂, Message.parse m d = .ok (true, m₁) → Message.parse Message.new d = .ok (true, m₂) →
      m₁.tid = m₂.tid ∧ m₁.seoj = m₂.seoj ∧ m₁.deoj = m₂.deoj ∧ m₁.esvByte = m₂.esvByte ∧
      m₁.properties = m.properties ++ m₂.properties ∧
      m₁.setProperties = m.setProperties ++ m₂.setProperties ∧
      m₁.getProperties = m.getProperties ++ m₂.getProperties) := by
  refine ⟨?_, ⟨?_, ?_⟩, ?_⟩
  · rw [Message.parse_panic_iff, Message.parse_panic_iff]
  · rintro ⟨m', h⟩
    obtain ⟨f, rest, hv, hd, -⟩ := Message.parse_sound _ _ _ h
    obtain ⟨m'', h', -⟩ := Message.parse_complete Message.new f rest hv
    exact ⟨m'', hd ▸ h'⟩
  · rintro ⟨m', h⟩
    obtain ⟨f, rest, hv, hd, -⟩ := Message.parse_sound _ _ _ h
    obtain ⟨m'', h', -⟩ := Message.parse_complete m f rest hv
    exact ⟨m'', hd ▸ h'⟩
  · intro m₁ m₂ h1 h2
    obtain ⟨f, rest, hv, hd, _, a2, a3, a4, a5, _, a7⟩ := Message.parse_sound _ _ _ h1
    obtain ⟨g, rest', gv, gd, _, b2, b3, b4, b5, _, b7⟩ := Message.parse_sound _ _ _ h2
    obtain ⟨rfl, -⟩ := C06_frame_unambiguous f g rest rest' hv gv (hd ▸ gd)
    refine ⟨UInt16.toNat.inj (a2.trans b2.symm), UInt32.toNat.inj (a3.trans b3.symm),
      UInt32.toNat.inj (a4.trans b4.symm), a5.trans b5.symm, ?_⟩
    cases hb : f.body with
    | single ps =>
      rw [hb] at a7 b7
      simp only [Message.new, List.nil_append] at b7
      simp [a7, b7]
    | setGet s g =>
      rw [hb] at a7 b7
      simp only [Message.new, List.nil_append] at b7
      simp [a7, b7]

/-- C56 is false: parsing the same datagram twice into one message doubles its properties. -/
theorem C56_fails : ∃ d m m', Message.parse Message.new d = .ok (true, m) ∧
    Message.parse m d = .ok (true, m') ∧ m'.properties ≠ m.properties :=
  ⟨exRead.bytes, _, _, rfl, rfl, by decide⟩

example : ∃ m₁ m₂, Message.parse exWR exRead.bytes = .ok (true, m₁) ∧
    Message.parse Message.new exRead.bytes = .ok (true, m₂) ∧ m₂.properties ≠ [] :=
  ⟨_, _, rfl, rfl, by decide⟩

end Uecho
