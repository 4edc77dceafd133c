import Verif.Spec.Tools
import Verif.Props.Controller
/-!
# The command line tools: C69
-/
namespace Uecho
open Spec
variable {S : Type}

theorem hexValue_iff (c v : UInt8) : hexValue c = some v ↔ HexDigit c v := by
  have hc := c.toNat_lt
  have hv := v.toNat_lt
  unfold hexValue HexDigit
  have e0 : '0'.toNat = 48 := rfl
  have eA : 'A'.toNat = 65 := rfl
  have ea : 'a'.toNat = 97 := rfl
  rw [e0, eA, ea]
  simp only [UInt8.le_iff_toNat_le]
  have t : ∀ n : Nat, n < 256 → (UInt8.ofNat n).toNat = n := fun n h => by simp [Nat.mod_eq_of_lt h]
  split
  · rename_i h
    have h : 48 ≤ c.toNat ∧ c.toNat ≤ 57 := h
    simp only [Option.some.injEq]
    rw [← UInt8.toNat_inj, UInt8.toNat_sub_of_le _ _ (by rw [UInt8.le_iff_toNat_le]; exact h.1)]
    show c.toNat - 48 = _ ↔ _
    omega
  · rename_i h0
    have h0 : ¬ (48 ≤ c.toNat ∧ c.toNat ≤ 57) := h0
    split
    · rename_i h
      have h : 65 ≤ c.toNat ∧ c.toNat ≤ 70 := h
      simp only [Option.some.injEq]
      rw [← UInt8.toNat_inj, UInt8.toNat_add, UInt8.toNat_sub_of_le _ _ (by rw [UInt8.le_iff_toNat_le]; exact h.1)]
      show (c.toNat - 65 + 10) % 256 = _ ↔ _
      omega
    · rename_i h1
      have h1 : ¬ (65 ≤ c.toNat ∧ c.toNat ≤ 70) := h1
      split
      · rename_i h
        have h : 97 ≤ c.toNat ∧ c.toNat ≤ 102 := h
        simp only [Option.some.injEq]
        rw [← UInt8.toNat_inj, UInt8.toNat_add, UInt8.toNat_sub_of_le _ _ (by rw [UInt8.le_iff_toNat_le]; exact h.1)]
        show (c.toNat - 97 + 10) % 256 = _ ↔ _
        omega
      · rename_i h2
        have h2 : ¬ (97 ≤ c.toNat ∧ c.toNat ≤ 102) := h2
        simp only [reduceCtorEq, false_iff]
        omega

theorem hexDigit_lt {c v : UInt8} (h : HexDigit c v) : v.toNat < 16 := by
  unfold HexDigit at h; omega

theorem nibbles {x y z : UInt8} (hx : x.toNat < 16) (hy : y.toNat < 16) :
    (x <<< 4 ||| y) = z ↔ z.toNat = 16 * x.toNat + y.toNat := by
  have : (x <<< 4 ||| y).toNat = 16 * x.toNat + y.toNat := by
    rw [UInt8.toNat_or, UInt8.toNat_shiftLeft]
    show (x.toNat <<< (4 % 8) % 256) ||| y.toNat = _
    rw [Nat.shiftLeft_eq]
    rw [Nat.mod_eq_of_lt (by rw [show 2 ^ (4 % 8) = 16 from rfl]; omega), show x.toNat * 2 ^ (4 % 8) = x.toNat <<< 4 by rw [Nat.shiftLeft_eq],
      ← Nat.shiftLeft_add_eq_or_of_lt (by omega : y.toNat < 2 ^ 4), Nat.shiftLeft_eq]
    omega
  rw [← this, ← UInt8.toNat_inj]
  exact eq_comm

/-- C69: the tools decode exactly hexadecimal notation with an even number of digits, in either case. -/
theorem C69_hex : ∀ s l : List UInt8, hexDecode s = some l ↔ IsHex s l
  | [], l => by
    constructor
    · intro h; simp only [hexDecode, Option.some.injEq] at h; subst h; exact .nil
    · intro h; cases h; rfl
  | [c], l => by
    constructor
    · intro h; simp [hexDecode] at h
    · intro h; cases h
  | c :: d :: s, l => by
    have ih := C69_hex s
    constructor
    · intro h
      simp only [hexDecode] at h
      cases hc : hexValue c with
      | none => simp [hc] at h
      | some x =>
        cases hd : hexValue d with
        | none => simp [hc, hd] at h
        | some y =>
          cases hs : hexDecode s with
          | none => simp [hc, hd, hs] at h
          | some r =>
            simp only [hc, hd, hs, Option.some.injEq] at h
            subst h
            have hx := (hexValue_iff c x).mp hc
            have hy := (hexValue_iff d y).mp hd
            exact .cons hx hy ((nibbles (hexDigit_lt hx) (hexDigit_lt hy)).mp rfl) ((ih r).mp hs)
    · intro h
      cases h with
      | cons hc hd hz hs =>
        simp only [hexDecode, (hexValue_iff _ _).mpr hc, (hexValue_iff _ _).mpr hd, (ih _).mpr hs]
        rw [(nibbles (hexDigit_lt hc) (hexDigit_lt hd)).mpr hz]

theorem isHex_not_option {s l : List UInt8} (h : IsHex s l) : s ≠ argV ∧ s ≠ argH := by
  constructor
  · rintro rfl
    have := (C69_hex _ _).mpr h
    simp [hexDecode, argV, show hexValue 0x2D = none from rfl] at this
  · rintro rfl
    have := (C69_hex _ _).mpr h
    simp [hexDecode, argH, show hexValue 0x2D = none from rfl] at this

/-- `-v` can be given anywhere without changing what is sent. -/
theorem C69_verbose (b : Build) (parseIp : List UInt8 → Option IpAddr) (args : List (List UInt8)) :
    postCommand b parseIp (args.filter (fun a => a ≠ argV)) = postCommand b parseIp args := by
  have key : ∀ s, postArgs b parseIp s (args.filter (fun a => a ≠ argV)) = postArgs b parseIp s args := by
    induction args with
    | nil => intro s; rfl
    | cons a as ih =>
      intro s
      by_cases h : a = argV
      · subst h
        have e : postArg b parseIp s argV = .ok (some s) := by unfold postArg; rw [if_pos rfl]
        simp only [ne_eq, not_true_eq_false, decide_false, Bool.false_eq_true, not_false_eq_true,
          List.filter_cons_of_neg, postArgs, e]
        exact ih s
      · rw [List.filter_cons_of_pos (by simpa using h)]
        simp only [postArgs]
        cases postArg b parseIp s a with
        | panic => rfl
        | ok r =>
          cases r with
          | none => rfl
          | some s' => exact ih s'
  unfold postCommand
  rw [key]

theorem postArgs_cons {b : Build} {parseIp : List UInt8 → Option IpAddr} {s s' : PostArgs} {a : List UInt8}
    {as : List (List UInt8)} (h : postArg b parseIp s a = .ok (some s')) :
    postArgs b parseIp s (a :: as) = postArgs b parseIp s' as := by
  simp only [postArgs, h]

theorem postProperties_eq (edts : List (List UInt8)) : ∀ (epcs : List UInt8) (n : Nat),
    postProperties edts n epcs = (List.range epcs.length).map (fun i => ⟨epcs.getD i 0, (edts[n + i]?).getD []⟩)
  | [], _ => rfl
  | e :: es, n => by
    rw [postProperties, postProperties_eq edts es (n + 1), List.length_cons, List.range_succ_eq_map, List.map_cons,
      List.map_map]
    congr 1
    · simp only [Nat.add_zero, List.getD_cons_zero]
      cases edts[n]? <;> rfl
    · apply List.map_congr_left
      intro i _
      simp only [Function.comp, List.getD_cons_succ]
      rw [show n + 1 + i = n + i.succ by omega]

theorem postProperties_grow (edts : List (List UInt8)) (epcs : List UInt8) (c : UInt8) (data : List UInt8)
  (hl : epcs.length = edts.length) :
    postProperties (edts ++ [data]) 0 (epcs ++ [c]) = postProperties edts 0 epcs ++ [⟨c, data⟩] ∧
    postProperties edts 0 (epcs ++ [c]) = postProperties edts 0 epcs ++ [⟨c, []⟩] := by
  simp only [postProperties_eq, List.length_append, List.length_cons, List.length_nil, Nat.zero_add,
    List.range_succ, List.map_append, List.map_cons, List.map_nil]
  have e1 : ∀ i < epcs.length, (epcs ++ [c]).getD i 0 = epcs.getD i 0 := by
    intro i hi
    simp [List.getD_eq_getElem?_getD, List.getElem?_append_left hi]
  have e2 : (epcs ++ [c]).getD epcs.length 0 = c := by simp [List.getD_eq_getElem?_getD]
  refine ⟨?_, ?_⟩
  · congr 1
    · apply List.map_congr_left
      intro i hi
      have hi := List.mem_range.mp hi
      rw [e1 i hi, List.getElem?_append_left (by omega)]
    · rw [e2, hl, List.getElem?_concat_length]; rfl
  · congr 1
    · apply List.map_congr_left
      intro i hi
      rw [e1 i (List.mem_range.mp hi)]
    · rw [e2, hl, List.getElem?_eq_none (Nat.le_refl _)]; rfl

/-- The property arguments are read as they are meant. -/
theorem postArgs_properties {b : Build} {parseIp : List UInt8 → Option IpAddr} {as : List (List UInt8)}
    {ps : List WProperty} (h : PropertyArgs as ps) :
    ∀ (s : PostArgs), s.program ≠ [] → s.addr ≠ ipaddrNone → s.obj ≠ 0 → s.esv ≠ .Unknown →
      s.epcs.length = s.edts.length →
      ∃ s', postArgs b parseIp s as = .ok (some s') ∧ s'.addr = s.addr ∧ s'.obj = s.obj ∧ s'.esv = s.esv ∧
        s'.epcs.length = s.epcs.length + ps.length ∧
        postProperties s'.edts 0 s'.epcs = postProperties s.edts 0 s.epcs ++ ps := by
  have epcArg : ∀ (s : PostArgs) (e : List UInt8) (c : UInt8), IsHex e [c] → s.program ≠ [] → s.addr ≠ ipaddrNone →
      s.obj ≠ 0 → s.esv ≠ .Unknown → s.epcs.length = s.edts.length →
      postArg b parseIp s e = .ok (some { s with epcs := s.epcs ++ [c] }) := by
    intro s e c he h1 h2 h3 h4 h5
    obtain ⟨n1, n2⟩ := isHex_not_option he
    unfold postArg
    rw [if_neg n1, if_neg n2, if_neg (by simpa using h1), if_neg h2, if_neg h3, if_neg h4, if_pos h5,
      (C69_hex e [c]).mpr he]
    rfl
  induction h with
  | nil => intro s _ _ _ _ _; exact ⟨s, rfl, rfl, rfl, rfl, rfl, by simp⟩
  | @last e c he =>
    intro s h1 h2 h3 h4 h5
    refine ⟨{ s with epcs := s.epcs ++ [c] }, ?_, rfl, rfl, rfl, by simp, (postProperties_grow _ _ c [] h5).2⟩
    rw [postArgs_cons (epcArg s e c he h1 h2 h3 h4 h5)]; rfl
  | @cons e d c data as ps he hd hp ih =>
    intro s h1 h2 h3 h4 h5
    have hdarg : postArg b parseIp { s with epcs := s.epcs ++ [c] } d =
        .ok (some { s with epcs := s.epcs ++ [c], edts := s.edts ++ [data] }) := by
      obtain ⟨n1, n2⟩ := isHex_not_option hd
      unfold postArg
      rw [if_neg n1, if_neg n2, if_neg (by simpa using h1), if_neg h2, if_neg h3, if_neg h4,
        if_neg (by simp [h5]), if_pos (by simp [h5]), (C69_hex d data).mpr hd]
    obtain ⟨s', g1, g2, g3, g4, g5, g6⟩ := ih { s with epcs := s.epcs ++ [c], edts := s.edts ++ [data] } h1 h2 h3 h4
      (by simp [h5])
    refine ⟨s', ?_, g2, g3, g4, ?_, ?_⟩
    · rw [postArgs_cons (epcArg s e c he h1 h2 h3 h4 h5), postArgs_cons hdarg]; exact g1
    · rw [g5]; simp; omega
    · rw [g6, (postProperties_grow _ _ c data h5).1]; simp

theorem addProperties_fields (ps : List WProperty) : ∀ m : Message,
    let m' := ps.foldl (fun m p => m.addProperty p) m
    m'.properties = m.properties ++ ps ∧ m' = { m with properties := m'.properties } := by
  induction ps with
  | nil => intro m; simp
  | cons p ps ih =>
    intro m
    obtain ⟨h1, h2⟩ := ih (m.addProperty p)
    simp only [List.foldl_cons]
    refine ⟨?_, ?_⟩
    · rw [h1]; simp [Message.addProperty]
    · generalize ps.foldl (fun m p => m.addProperty p) (m.addProperty p) = q at h2 ⊢
      rw [h2]; rfl

/-- C69: a complete command line stands for the message with exactly its object, service and properties. -/
theorem C69_message_partial (b : Build) (parseIp : List UInt8 → Option IpAddr) (args : List (List UInt8))
    (addr : IpAddr) (obj : UInt32) (esv : UInt8) (ps : List WProperty) (h : PostLine parseIp args addr obj esv ps) :
    ∃ m, postCommand b parseIp args = .ok (some (addr, m)) ∧ m.deoj = obj ∧ m.esvByte = esv ∧ m.properties = ps ∧
      m.setProperties = [] ∧ m.getProperties = [] ∧ m.tid = 0 ∧ m.isFormat1 = true := by
  obtain ⟨⟨prog, a, o, e, rest, rfl, p1, p2, p3, a1, a2, a3, ho, he, hr⟩, haddr, ⟨hobj, hlt⟩, hsvc, hps⟩ := h
  have hobj0 : obj ≠ 0 := by rintro rfl; exact absurd hobj (by decide)
  have haddr' : addr ≠ ipaddrNone := haddr
  have s1 : postArg b parseIp ⟨[], ipaddrNone, .Unknown, 0, [], []⟩ prog = .ok (some ⟨prog, ipaddrNone, .Unknown, 0, [], []⟩) := by
    unfold postArg; simp only []; rw [if_neg p2, if_neg p3, if_pos List.length_nil]
  have s2 : postArg b parseIp ⟨prog, ipaddrNone, .Unknown, 0, [], []⟩ a =
      .ok (some ⟨prog, addr, .Unknown, 0, [], []⟩) := by
    unfold postArg
    simp only []
    rw [if_neg a1, if_neg a2, if_neg (by simpa using p1), if_pos trivial, a3]
  have s3 : postArg b parseIp ⟨prog, addr, .Unknown, 0, [], []⟩ o =
      .ok (some ⟨prog, addr, .Unknown, obj, [], []⟩) := by
    obtain ⟨n1, n2⟩ := isHex_not_option ho
    unfold postArg
    simp only []
    obtain ⟨v, hv, hvn⟩ := C11_toU32 b (be 3 obj.toNat) (by rw [be_length]; decide)
    have : v = obj := UInt32.toNat.inj (by rw [hvn, beVal_be, Nat.mod_eq_of_lt (by omega)])
    subst this
    rw [if_neg n1, if_neg n2, if_neg (by simpa using p1), if_neg haddr', if_pos trivial, (C69_hex _ _).mpr ho]
    simp only [hv, Res.bind_ok, Res.pure_eq]
  have s4 : postArg b parseIp ⟨prog, addr, .Unknown, obj, [], []⟩ e =
      .ok (some ⟨prog, addr, ESV.fromU8 esv, obj, [], []⟩) := by
    obtain ⟨n1, n2⟩ := isHex_not_option he
    unfold postArg
    simp only []
    rw [if_neg n1, if_neg n2, if_neg (by simpa using p1), if_neg haddr', if_neg hobj0, if_pos trivial, (C69_hex _ _).mpr he]
    simp only [index, List.getElem?_cons_zero, Res.bind_ok, Res.pure_eq, hsvc, if_false]
  obtain ⟨s', g1, g2, g3, g4, g5, g6⟩ := postArgs_properties (b := b) (parseIp := parseIp) hr
    ⟨prog, addr, ESV.fromU8 esv, obj, [], []⟩ p1 haddr hobj0 hsvc rfl
  have hcomplete : s'.complete = true := by
    unfold PostArgs.complete
    rw [if_neg (by rw [g2]; exact haddr), if_neg (by rw [g4]; exact hsvc), if_neg (by rw [g3]; exact hobj0), if_neg]
    rw [g5]
    have := List.length_pos_iff.mpr hps
    omega
  obtain ⟨f1, f2⟩ := addProperties_fields (postProperties s'.edts 0 s'.epcs) ((Message.new.setEsv s'.esv).setDeoj s'.obj)
  refine ⟨s'.message, ?_, ?_, ?_, ?_, ?_, ?_, ?_, ?_⟩
  · unfold postCommand
    rw [show PostArgs.init = ⟨[], ipaddrNone, .Unknown, 0, [], []⟩ from rfl, postArgs_cons s1, postArgs_cons s2, postArgs_cons s3, postArgs_cons s4, g1]
    simp only [hcomplete, if_true, g2]
  all_goals unfold PostArgs.message
  all_goals simp only []
  · rw [f2]
    show ((Message.new.setEsv s'.esv).setDeoj s'.obj).deoj = obj
    apply UInt32.toNat.inj
    rw [(C09_header_accessors _ 0 s'.obj .Unknown).2.2.1, g3]
    exact Nat.mod_eq_of_lt hlt
  · rw [f2]
    show s'.esv.toU8 = esv
    rw [g4]
    have hk := C10_fromU8 esv
    rcases Classical.em (esv ∈ knownServices) with hm | hm
    · exact (hk.1 hm).1
    · exact absurd (hk.2 hm) hsvc
  · rw [f1, g6]; rfl
  · rw [f2]; rfl
  · rw [f2]; rfl
  · rw [f2]; rfl
  · rw [f2]; rfl

/-! ### Only complete command lines are sent -/

theorem postArgs_some {b : Build} {parseIp : List UInt8 → Option IpAddr} {s s' : PostArgs} {a : List UInt8}
    {as : List (List UInt8)} (h : postArgs b parseIp s (a :: as) = .ok (some s')) :
    ∃ s₁, postArg b parseIp s a = .ok (some s₁) ∧ postArgs b parseIp s₁ as = .ok (some s') := by
  simp only [postArgs] at h
  split at h
  · simp at h
  · simp at h
  · rename_i s₁ hs; exact ⟨s₁, hs, h⟩

theorem postArg_help {b : Build} {parseIp : List UInt8 → Option IpAddr} {s s' : PostArgs} {a : List UInt8}
    (h : postArg b parseIp s a = .ok (some s')) : a ≠ argH := by
  rintro rfl
  unfold postArg at h
  rw [if_neg (by decide), if_pos rfl] at h
  simp at h

theorem postArgs_help {b : Build} {parseIp : List UInt8 → Option IpAddr} {as : List (List UInt8)} :
    ∀ {s s' : PostArgs}, postArgs b parseIp s as = .ok (some s') → argH ∉ as := by
  induction as with
  | nil => intro s s' _; simp
  | cons a as ih =>
    intro s s' h
    obtain ⟨s₁, h1, h2⟩ := postArgs_some h
    rw [List.mem_cons]
    rintro (h | h)
    · exact postArg_help h1 h.symm
    · exact ih h2 h

/-- The state in which property codes and data are read. -/
def Reading (s : PostArgs) : Prop :=
  s.program ≠ [] ∧ s.addr ≠ ipaddrNone ∧ s.obj ≠ 0 ∧ s.esv ≠ .Unknown ∧ s.epcs.length = s.edts.length

theorem reading_sound {b : Build} {parseIp : List UInt8 → Option IpAddr} : ∀ (as : List (List UInt8)) (s s' : PostArgs),
    argV ∉ as → Reading s → postArgs b parseIp s as = .ok (some s') →
    ∃ ps, LooseArgs as ps ∧ s'.addr = s.addr ∧ s'.obj = s.obj ∧ s'.esv = s.esv ∧
      s'.epcs.length = s.epcs.length + ps.length ∧
      postProperties s'.edts 0 s'.epcs = postProperties s.edts 0 s.epcs ++ ps
  | [], s, s', _, _, h => by
    simp only [postArgs, Res.ok.injEq, Option.some.injEq] at h
    subst h
    exact ⟨[], .nil, rfl, rfl, rfl, rfl, by simp⟩
  | e :: as, s, s', hv, hs, h => by
    obtain ⟨h1, h2, h3, h4, h5⟩ := hs
    obtain ⟨s₁, ha, h⟩ := postArgs_some h
    have hn := postArg_help ha
    unfold postArg at ha
    rw [if_neg (fun x => hv (by simp [x])), if_neg hn, if_neg (by simpa using h1), if_neg h2, if_neg h3, if_neg h4,
      if_pos h5] at ha
    cases hd : hexDecode e with
    | none => rw [hd] at ha; simp at ha
    | some bytes =>
      rw [hd] at ha
      simp only [] at ha
      obtain ⟨c, hc, ha⟩ := Res.bind_eq_ok.mp ha
      simp only [Res.pure_eq, Res.ok.injEq, Option.some.injEq] at ha
      subst ha
      obtain ⟨xs, rfl⟩ : ∃ xs, bytes = c :: xs := by
        cases bytes with
        | nil => simp [index] at hc
        | cons x xs => simp [index] at hc; exact ⟨xs, by rw [hc]⟩
      have he := (C69_hex _ _).mp hd
      match as, hv, h with
      | [], _, h =>
        simp only [postArgs, Res.ok.injEq, Option.some.injEq] at h
        subst h
        exact ⟨_, .last he, rfl, rfl, rfl, by simp, (postProperties_grow _ _ c [] h5).2⟩
      | d :: as, hv, h =>
        obtain ⟨s₁, ha, h⟩ := postArgs_some h
        have hn := postArg_help ha
        unfold postArg at ha
        rw [if_neg (fun x => hv (by simp [x])), if_neg hn, if_neg (by simpa using h1), if_neg h2, if_neg h3, if_neg h4,
          if_neg (by simp [h5]), if_pos (by simp [h5])] at ha
        cases hd : hexDecode d with
        | none => rw [hd] at ha; simp at ha
        | some data =>
          rw [hd] at ha
          simp only [Res.ok.injEq, Option.some.injEq] at ha
          subst ha
          obtain ⟨ps, g1, g2, g3, g4, g5, g6⟩ := reading_sound as { s with epcs := s.epcs ++ [c], edts := s.edts ++ [data] } s' (fun x => hv (by simp [x]))
            ⟨h1, h2, h3, h4, by simp [h5]⟩ h
          refine ⟨_, .cons he ((C69_hex _ _).mp hd) g1, g2, g3, g4, ?_, ?_⟩
          · rw [g5]; simp; omega
          · rw [g6, (postProperties_grow _ _ c data h5).1]; simp

/-- The arguments after the object, when the service is next. -/
theorem service_sound {b : Build} {parseIp : List UInt8 → Option IpAddr} (as : List (List UInt8)) (s s' : PostArgs)
    (hv : argV ∉ as) (h1 : s.program ≠ []) (h2 : s.addr ≠ ipaddrNone) (h3 : s.obj ≠ 0) (h4 : s.esv = .Unknown)
    (h5 : s.epcs = [] ∧ s.edts = []) (h : postArgs b parseIp s as = .ok (some s')) (hc : s'.complete = true) :
    ∃ e rest c xs ps, as = e :: rest ∧ IsHex e (c :: xs) ∧ ESV.fromU8 c ≠ .Unknown ∧ LooseArgs rest ps ∧
      s'.addr = s.addr ∧ s'.obj = s.obj ∧ s'.esv = ESV.fromU8 c ∧ s'.epcs.length = ps.length ∧
      postProperties s'.edts 0 s'.epcs = ps := by
  match as, hv, h with
  | [], _, h =>
    simp only [postArgs, Res.ok.injEq, Option.some.injEq] at h
    subst h
    unfold PostArgs.complete at hc
    rw [if_neg h2, if_pos h4] at hc
    simp at hc
  | e :: rest, hv, h =>
    obtain ⟨s₁, ha, h⟩ := postArgs_some h
    have hn := postArg_help ha
    unfold postArg at ha
    rw [if_neg (fun x => hv (by simp [x])), if_neg hn, if_neg (by simpa using h1), if_neg h2, if_neg h3, if_pos h4] at ha
    cases hd : hexDecode e with
    | none => rw [hd] at ha; simp at ha
    | some bytes =>
      rw [hd] at ha
      simp only [] at ha
      obtain ⟨c, hi, ha'⟩ := Res.bind_eq_ok.mp ha
      clear ha
      obtain ⟨xs, rfl⟩ : ∃ xs, bytes = c :: xs := by
        cases bytes with
        | nil => simp [index] at hi
        | cons x xs => simp [index] at hi; exact ⟨xs, by rw [hi]⟩
      split at ha'
      · simp at ha'
      · rename_i hk
        simp only [Res.pure_eq, Res.ok.injEq, Option.some.injEq] at ha'
        subst ha'
        obtain ⟨ps, g1, g2, g3, g4, g5, g6⟩ := reading_sound rest { s with esv := ESV.fromU8 c } s' (fun x => hv (by simp [x]))
          ⟨h1, h2, h3, hk, by simp [h5]⟩ h
        refine ⟨e, rest, c, xs, ps, rfl, (C69_hex _ _).mp hd, hk, g1, g2, g3, g4, ?_, ?_⟩
        · rw [g5]; simp [h5]
        · rw [g6]; simp [h5, postProperties]

/-- The arguments after the address, when the object is next. -/
theorem object_sound {b : Build} {parseIp : List UInt8 → Option IpAddr} : ∀ (as : List (List UInt8)) (s s' : PostArgs),
    argV ∉ as → s.program ≠ [] → s.addr ≠ ipaddrNone → s.obj = 0 → s.esv = .Unknown → s.epcs = [] ∧ s.edts = [] →
    postArgs b parseIp s as = .ok (some s') → s'.complete = true →
    ∃ nulls o code e rest c xs ps, as = nulls ++ o :: e :: rest ∧
      (∀ x ∈ nulls, ∃ bs, IsHex x bs ∧ (bs.length ≤ 4 → beVal bs = 0)) ∧
      IsHex o code ∧ (code.length ≤ 4 → s'.obj.toNat = beVal code) ∧ s'.obj ≠ 0 ∧
      IsHex e (c :: xs) ∧ ESV.fromU8 c ≠ .Unknown ∧ LooseArgs rest ps ∧
      s'.addr = s.addr ∧ s'.esv = ESV.fromU8 c ∧ s'.epcs.length = ps.length ∧
      postProperties s'.edts 0 s'.epcs = ps
  | [], s, s', _, _, h2, h3, h4, _, h, hc => by
    simp only [postArgs, Res.ok.injEq, Option.some.injEq] at h
    subst h
    unfold PostArgs.complete at hc
    rw [if_neg h2, if_pos h4] at hc
    simp at hc
  | o :: as, s, s', hv, h1, h2, h3, h4, h5, h, hc => by
    obtain ⟨s₁, ha, h⟩ := postArgs_some h
    have hn := postArg_help ha
    unfold postArg at ha
    rw [if_neg (fun x => hv (by simp [x])), if_neg hn, if_neg (by simpa using h1), if_neg h2, if_pos h3] at ha
    cases hd : hexDecode o with
    | none => rw [hd] at ha; simp at ha
    | some code =>
      rw [hd] at ha
      simp only [] at ha
      obtain ⟨v, hval, ha⟩ := Res.bind_eq_ok.mp ha
      simp only [Res.pure_eq, Res.ok.injEq, Option.some.injEq] at ha
      subst ha
      have hcode := (C69_hex _ _).mp hd
      have hv4 : code.length ≤ 4 → v.toNat = beVal code := by
        intro hl
        obtain ⟨w, hw, hwn⟩ := C11_toU32 b code hl
        rw [hw] at hval
        rw [← Res.ok.inj hval, hwn]
      by_cases hz : v = 0
      · obtain ⟨nulls, o', code', e, rest, c, xs, ps, rfl, g0, g⟩ := object_sound as { s with obj := v } s' (fun x => hv (by simp [x]))
          h1 h2 hz h4 h5 h hc
        refine ⟨o :: nulls, o', code', e, rest, c, xs, ps, rfl, ?_, g⟩
        intro x hx
        rcases List.mem_cons.mp hx with rfl | hx
        · exact ⟨code, hcode, fun hl => by rw [← hv4 hl, hz]; rfl⟩
        · exact g0 x hx
      · obtain ⟨e, rest, c, xs, ps, rfl, g1, g2, g3, g4, g5, g6, g7, g8⟩ := service_sound as { s with obj := v } s'
          (fun x => hv (by simp [x])) h1 h2 hz h4 h5 h hc
        refine ⟨[], o, code, e, rest, c, xs, ps, rfl, by simp, hcode, ?_, ?_, g1, g2, g3, g4, g6, g7, g8⟩
        · rw [g5]; exact hv4
        · rw [g5]; exact hz

/-- The arguments after the program's name, when the address is next. -/
theorem address_sound {b : Build} {parseIp : List UInt8 → Option IpAddr} : ∀ (as : List (List UInt8)) (s s' : PostArgs),
    argV ∉ as → s.program ≠ [] → s.addr = ipaddrNone → s.obj = 0 → s.esv = .Unknown → s.epcs = [] ∧ s.edts = [] →
    postArgs b parseIp s as = .ok (some s') → s'.complete = true →
    ∃ zeros a nulls o code e rest c xs ps, as = zeros ++ a :: (nulls ++ o :: e :: rest) ∧
      (∀ x ∈ zeros, parseIp x = some ipaddrNone) ∧ parseIp a = some s'.addr ∧ s'.addr ≠ ipaddrNone ∧
      (∀ x ∈ nulls, ∃ bs, IsHex x bs ∧ (bs.length ≤ 4 → beVal bs = 0)) ∧
      IsHex o code ∧ (code.length ≤ 4 → s'.obj.toNat = beVal code) ∧ s'.obj ≠ 0 ∧
      IsHex e (c :: xs) ∧ ESV.fromU8 c ≠ .Unknown ∧ LooseArgs rest ps ∧
      s'.esv = ESV.fromU8 c ∧ s'.epcs.length = ps.length ∧ postProperties s'.edts 0 s'.epcs = ps
  | [], s, s', _, _, h2, _, _, _, h, hc => by
    simp only [postArgs, Res.ok.injEq, Option.some.injEq] at h
    subst h
    unfold PostArgs.complete at hc
    rw [if_pos h2] at hc
    simp at hc
  | a :: as, s, s', hv, h1, h2, h3, h4, h5, h, hc => by
    obtain ⟨s₁, ha, h⟩ := postArgs_some h
    have hn := postArg_help ha
    unfold postArg at ha
    rw [if_neg (fun x => hv (by simp [x])), if_neg hn, if_neg (by simpa using h1), if_pos h2] at ha
    cases hd : parseIp a with
    | none => rw [hd] at ha; simp at ha
    | some x =>
      rw [hd] at ha
      simp only [Res.ok.injEq, Option.some.injEq] at ha
      subst ha
      by_cases hz : x = ipaddrNone
      · obtain ⟨zeros, a', nulls, o, code, e, rest, c, xs, ps, rfl, g0, g⟩ := address_sound as { s with addr := x } s'
          (fun x => hv (by simp [x])) h1 hz h3 h4 h5 h hc
        refine ⟨a :: zeros, a', nulls, o, code, e, rest, c, xs, ps, rfl, ?_, g⟩
        intro y hy
        rcases List.mem_cons.mp hy with rfl | hy
        · rw [hd, hz]
        · exact g0 y hy
      · obtain ⟨nulls, o, code, e, rest, c, xs, ps, rfl, g1, g2, g3, g4, g5, g6, g7, g8, g9, g10, g11⟩ :=
          object_sound as { s with addr := x } s' (fun x => hv (by simp [x])) h1 hz h3 h4 h5 h hc
        refine ⟨[], a, nulls, o, code, e, rest, c, xs, ps, rfl, by simp, ?_, ?_, g1, g2, g3, g4, g5, g6, g7, g9, g10, g11⟩
        · rw [g8, hd]
        · rw [g8]; exact hz

/-- All arguments. -/
theorem program_sound {b : Build} {parseIp : List UInt8 → Option IpAddr} : ∀ (as : List (List UInt8)) (s' : PostArgs),
    argV ∉ as → postArgs b parseIp .init as = .ok (some s') → s'.complete = true →
    ∃ blanks prog zeros a nulls o code e rest c xs ps,
      as = blanks ++ prog :: (zeros ++ a :: (nulls ++ o :: e :: rest)) ∧
      (∀ x ∈ blanks, x = []) ∧ prog ≠ [] ∧
      (∀ x ∈ zeros, parseIp x = some ipaddrNone) ∧ parseIp a = some s'.addr ∧ s'.addr ≠ ipaddrNone ∧
      (∀ x ∈ nulls, ∃ bs, IsHex x bs ∧ (bs.length ≤ 4 → beVal bs = 0)) ∧
      IsHex o code ∧ (code.length ≤ 4 → s'.obj.toNat = beVal code) ∧ s'.obj ≠ 0 ∧
      IsHex e (c :: xs) ∧ ESV.fromU8 c ≠ .Unknown ∧ LooseArgs rest ps ∧
      s'.esv = ESV.fromU8 c ∧ s'.epcs.length = ps.length ∧ postProperties s'.edts 0 s'.epcs = ps
  | [], s', _, h, hc => by
    simp only [postArgs, Res.ok.injEq, Option.some.injEq] at h
    subst h
    exact absurd hc (by decide)
  | p :: as, s', hv, h, hc => by
    obtain ⟨s₁, ha, h⟩ := postArgs_some h
    have hn := postArg_help ha
    unfold postArg at ha
    rw [if_neg (fun x => hv (by simp [x])), if_neg hn, if_pos (show PostArgs.init.program.length = 0 from rfl)] at ha
    simp only [Res.ok.injEq, Option.some.injEq] at ha
    subst ha
    cases p with
    | nil =>
      obtain ⟨blanks, prog, zeros, a, nulls, o, code, e, rest, c, xs, ps, rfl, g0, g⟩ := program_sound as s'
        (fun x => hv (by simp [x])) h hc
      refine ⟨[] :: blanks, prog, zeros, a, nulls, o, code, e, rest, c, xs, ps, rfl, ?_, g⟩
      intro y hy
      rcases List.mem_cons.mp hy with rfl | hy
      · rfl
      · exact g0 y hy
    | cons x p =>
      obtain ⟨zeros, a, nulls, o, code, e, rest, c, xs, ps, rfl, g⟩ := address_sound as { PostArgs.init with program := x :: p } s'
        (fun x => hv (by simp [x])) (by simp) rfl rfl rfl ⟨rfl, rfl⟩ h hc
      exact ⟨[], x :: p, zeros, a, nulls, o, code, e, rest, c, xs, ps, rfl, by simp, by simp, g⟩

/-- C69: the tool has a message to send only for a command line that names, in this order, an address, an object, a
known service and properties, all in hexadecimal notation, and the message is the one these describe. So a malformed
command line sends nothing, except that further bytes of a service or property code, addresses 0.0.0.0 and objects
that are zero are passed over. -/
theorem C69_only (b : Build) (parseIp : List UInt8 → Option IpAddr) (args : List (List UInt8)) (addr : IpAddr)
    (m : Message) (h : postCommand b parseIp args = .ok (some (addr, m))) :
    ∃ obj esv ps, LooseLine parseIp args addr obj esv ps ∧
      m.deoj.toNat = obj.toNat % 2 ^ 24 ∧ m.esvByte = esv ∧ m.properties = ps ∧
      m.setProperties = [] ∧ m.getProperties = [] ∧ m.tid = 0 ∧ m.isFormat1 = true := by
  have hh : argH ∉ args := by
    unfold postCommand at h
    split at h
    · simp at h
    · simp at h
    · rename_i hs; exact postArgs_help hs
  rw [← C69_verbose] at h
  unfold postCommand at h
  split at h
  · simp at h
  · simp at h
  rename_i s hs
  split at h
  case isFalse => simp at h
  rename_i hc
  simp only [Res.ok.injEq, Option.some.injEq, Prod.mk.injEq] at h
  obtain ⟨rfl, rfl⟩ := h
  obtain ⟨blanks, prog, zeros, a, nulls, o, code, e, rest, c, xs, ps, hargs, g1, g2, g3, g4, g5, g6, g7, g8, g9, g10, g11,
    g12, g13, g14, g15⟩ := program_sound _ s (by simp) hs hc
  obtain ⟨f1, f2⟩ := addProperties_fields (postProperties s.edts 0 s.epcs) ((Message.new.setEsv s.esv).setDeoj s.obj)
  refine ⟨s.obj, c, ps, ⟨hh, ⟨blanks, prog, zeros, a, nulls, o, e, rest, code, xs, hargs, g1, g2, g3, g4, g6, g7, g8,
    g10, g12⟩, g5, g9, g11, ?_⟩, ?_⟩
  · rintro rfl
    unfold PostArgs.complete at hc
    rw [if_neg g5, if_neg (by rw [g13]; exact g11), if_neg g9, if_pos (by simpa using g14)] at hc
    simp at hc
  unfold PostArgs.message
  simp only []
  refine ⟨?_, ?_, ?_, ?_, ?_, ?_, ?_⟩
  · rw [f2]
    show ((Message.new.setEsv s.esv).setDeoj s.obj).deoj.toNat = _
    exact (C09_header_accessors (Message.new.setEsv s.esv) 0 s.obj .Unknown).2.2.1
  · rw [f2]
    show s.esv.toU8 = c
    rw [g13]
    rcases Classical.em (c ∈ knownServices) with hm | hm
    · exact ((C10_fromU8 c).1 hm).1
    · exact absurd ((C10_fromU8 c).2 hm) g11
  · rw [f1, g15]; rfl
  · rw [f2]; rfl
  · rw [f2]; rfl
  · rw [f2]; rfl
  · rw [f2]; rfl

theorem postTo_found (ok : Nat → Bool) (h : Host S) (addr : IpAddr) (msg : Message) :
    ∀ nodes : List RemoteNode, (∃ r ∈ nodes, r.addr.ip = addr) →
      ∃ r ∈ nodes, r.addr.ip = addr ∧ postTo ok h addr msg nodes = postTo ok h addr msg [r]
  | [], hr => by simp at hr
  | r :: rs, hr => by
    by_cases he : r.addr.ip = addr
    · refine ⟨r, List.mem_cons_self .., he, ?_⟩
      simp only [postTo, he, ne_eq, not_true_eq_false, if_false]
    · obtain ⟨q, hq, hqa, hqe⟩ := postTo_found ok h addr msg rs (by
        obtain ⟨q, hq, hqa⟩ := hr
        rcases List.mem_cons.mp hq with rfl | hq
        · exact absurd hqa he
        · exact ⟨q, hq, hqa⟩)
      refine ⟨q, List.mem_cons_of_mem _ hq, hqa, ?_⟩
      rw [← hqe]
      simp only [postTo, he, ne_eq, not_false_eq_true, if_true]

theorem postTo_absent (ok : Nat → Bool) (h : Host S) (addr : IpAddr) (msg : Message) :
    ∀ nodes : List RemoteNode, (∀ r ∈ nodes, r.addr.ip ≠ addr) → postTo ok h addr msg nodes = (false, h, [])
  | [], _ => rfl
  | r :: rs, hr => by
    have := hr r (List.mem_cons_self ..)
    simp only [postTo, this, ne_eq, not_false_eq_true, if_true]
    exact postTo_absent ok h addr msg rs (fun q hq => hr q (List.mem_cons_of_mem _ hq))

theorem request_kind {esv : UInt8} (h : esv = 0x60 ∨ esv = 0x61 ∨ esv = 0x62 ∨ esv = 0x63) :
    ESV.fromU8 esv = .WriteRequest ∨ ESV.fromU8 esv = .NotificationRequest ∨
    ESV.fromU8 esv = .WriteRequestResponseRequired ∨ ESV.fromU8 esv = .ReadRequest := by
  rcases h with rfl | rfl | rfl | rfl <;> decide

/-- C69: for the services 0x60 to 0x63 what is sent for a complete command line is the frame it describes, from the
node profile object of the tool, to port 3610 of the address given; nothing is sent, and the tool says so, exactly
when no discovered node has that address. -/
theorem C69_sent_partial (b : Build) (parseIp : List UInt8 → Option IpAddr) (args : List (List UInt8))
    (addr : IpAddr) (obj : UInt32) (esv : UInt8) (ps : List WProperty) (h : PostLine parseIp args addr obj esv ps)
    (hs : esv = 0x60 ∨ esv = 0x61 ∨ esv = 0x62 ∨ esv = 0x63) (ok : Nat → Bool) (c : Host S) (nodes : List RemoteNode) :
    ∃ m, postCommand b parseIp args = .ok (some (addr, m)) ∧
      ((postTo ok c addr m nodes).1 = true ↔ ∃ r ∈ nodes, r.addr.ip = addr) ∧
      ((∀ r ∈ nodes, r.addr.ip ≠ addr) → (postTo ok c addr m nodes).2.2 = []) ∧
      ((∃ r ∈ nodes, r.addr.ip = addr) → (replies (postTo ok c addr m nodes).2.2).length = 1) ∧
      ∀ t ∈ txs (postTo ok c addr m nodes).2.2, t.to = ⟨addr, 3610⟩ ∧
        t.bytes = Frame.encode ⟨(c.node.lastTid + 1).toNat, 0x0EF001, obj.toNat, esv, .single ps⟩ := by
  obtain ⟨m, hm, hd, he, hp, hsp, hgp, ht, hf⟩ := C69_message_partial b parseIp args addr obj esv ps h
  refine ⟨m, hm, ?_⟩
  have hesv : m.esv = ESV.fromU8 esv := by rw [Message.esv, he]
  have enc : ∀ u : Message, u.isFormat1 = true → u.tid = c.node.lastTid + 1 → u.seoj = 0x0EF001 → u.deoj = m.deoj →
      u.esvByte = m.esvByte → u.properties = m.properties →
      u.bytes = Frame.encode ⟨(c.node.lastTid + 1).toNat, 0x0EF001, obj.toNat, esv, .single ps⟩ := by
    intro u hfu h1 h2 h3 h4 h5
    rw [Message.bytes_eq_encode u hfu (by rw [h4, he]; rcases hs with rfl | rfl | rfl | rfl <;> decide)]
    unfold frameOf
    rw [h1, h2, h3, h4, h5, hd, he, hp, show isWriteReadByte esv = false by
      rcases hs with rfl | rfl | rfl | rfl <;> decide]
    rfl
  by_cases hex : ∃ r ∈ nodes, r.addr.ip = addr
  · obtain ⟨r, hr, hra, hre⟩ := postTo_found ok c addr m nodes hex
    rw [hre]
    have hsend := C49_send ok c r m
    have hpost := C49_post ok c r m
    have hfs : (c.sendMessage ok true r m).2.1.isFormat1 = true :=
      (updateTid_fields c.node (m.setSeoj nodeProfileCode)).2.2.2.2.2.2.1.trans hf
    have hfp : (c.postMessage ok r m).2.1.isFormat1 = true :=
      (updateTid_fields c.node (m.setSeoj nodeProfileCode)).2.2.2.2.2.2.1.trans hf
    have hps : postTo ok c addr m [r] = (true, (c.sendMessage ok true r m).2.2.1, (c.sendMessage ok true r m).2.2.2) ∨
        postTo ok c addr m [r] = (true, (c.postMessage ok r m).2.2.1, (c.postMessage ok r m).2.2.2) := by
      simp only [postTo, hra, ne_eq, not_true_eq_false, if_false, hesv]
      rcases request_kind hs with h | h | h | h <;> simp only [h, true_or, or_true]
    simp only [ht, if_true] at hsend hpost
    obtain ⟨a1, a2, a3, a4, _, _, a7, a8, a9, _⟩ := hsend
    obtain ⟨b1, b2, b3, b4, _, _, b7, b8, b9, _⟩ := hpost
    rcases hps with hps | hps
    all_goals rw [hps]
    all_goals refine ⟨⟨fun _ => hex, fun _ => rfl⟩, fun hno => absurd hra (hno r hr), ?_, ?_⟩
    · intro _; rw [a8]; rfl
    · intro t htx
      obtain ⟨e1, e2⟩ := a9 t htx
      exact ⟨by rw [e1, hra], by rw [e2]; exact enc _ hfs a7 a1 a2 a3 a4⟩
    · intro _; rw [b8]; rfl
    · intro t htx
      obtain ⟨e1, e2⟩ := b9 t htx
      exact ⟨by rw [e1, hra], by rw [e2]; exact enc _ hfp b7 b1 b2 b3 b4⟩
  · have hno : ∀ r ∈ nodes, r.addr.ip ≠ addr := fun r hr he => hex ⟨r, hr, he⟩
    rw [postTo_absent ok c addr m nodes hno]
    refine ⟨by simp [hex], fun _ => rfl, fun h => absurd h hex, ?_⟩
    intro t ht
    simp [txs] at ht

/-- C69 is false for service 0x6E: whatever properties the command line gives, the frame sent has neither properties
to write nor properties to read. -/
theorem C69_fails_write_read (b : Build) (parseIp : List UInt8 → Option IpAddr) (args : List (List UInt8))
    (addr : IpAddr) (obj : UInt32) (ps : List WProperty) (h : PostLine parseIp args addr obj 0x6E ps)
    (ok : Nat → Bool) (c : Host S) (nodes : List RemoteNode) :
    ∃ m, postCommand b parseIp args = .ok (some (addr, m)) ∧
      ∀ t ∈ txs (postTo ok c addr m nodes).2.2,
        t.bytes = Frame.encode ⟨(c.node.lastTid + 1).toNat, 0x0EF001, obj.toNat, 0x6E, .setGet [] []⟩ := by
  obtain ⟨m, hm, hd, he, hp, hsp, hgp, ht, hf⟩ := C69_message_partial b parseIp args addr obj 0x6E ps h
  refine ⟨m, hm, ?_⟩
  have hesv : m.esv = .WriteReadRequest := by rw [Message.esv, he]; decide
  by_cases hex : ∃ r ∈ nodes, r.addr.ip = addr
  · obtain ⟨r, hr, hra, hre⟩ := postTo_found ok c addr m nodes hex
    have hps : postTo ok c addr m [r] = (true, (c.postMessage ok r m).2.2.1, (c.postMessage ok r m).2.2.2) := by
      simp only [postTo, hra, ne_eq, not_true_eq_false, if_false, hesv]
    have hfp : (c.postMessage ok r m).2.1.isFormat1 = true :=
      (updateTid_fields c.node (m.setSeoj nodeProfileCode)).2.2.2.2.2.2.1.trans hf
    have hpost := C49_post ok c r m
    simp only [ht, if_true] at hpost
    obtain ⟨b1, b2, b3, _, b5, b6, b7, _, b9, _⟩ := hpost
    rw [hre, hps]
    intro t htx
    rw [(b9 t htx).2, Message.bytes_eq_encode _ hfp (by rw [b3, he]; decide)]
    unfold frameOf
    rw [b1, b2, b3, b5, b6, b7, hd, he, hsp, hgp]
    rfl
  · rw [postTo_absent ok c addr m nodes (fun r hr he => hex ⟨r, hr, he⟩)]
    intro t ht
    simp [txs] at ht

/-- C69: a service that is no request is never sent. -/
theorem C69_not_request (b : Build) (parseIp : List UInt8 → Option IpAddr) (args : List (List UInt8))
    (addr : IpAddr) (obj : UInt32) (esv : UInt8) (ps : List WProperty) (h : PostLine parseIp args addr obj esv ps)
    (hs : esv ≠ 0x60 ∧ esv ≠ 0x61 ∧ esv ≠ 0x62 ∧ esv ≠ 0x63 ∧ esv ≠ 0x6E)
    (ok : Nat → Bool) (c : Host S) (nodes : List RemoteNode) :
    ∃ m, postCommand b parseIp args = .ok (some (addr, m)) ∧ (postTo ok c addr m nodes).2 = (c, []) := by
  obtain ⟨m, hm, _, he, _⟩ := C69_message_partial b parseIp args addr obj esv ps h
  refine ⟨m, hm, ?_⟩
  have back : (ESV.fromU8 esv).toU8 = esv := by
    rcases Classical.em (esv ∈ knownServices) with hk | hk
    · exact ((C10_fromU8 esv).1 hk).1
    · exact absurd ((C10_fromU8 esv).2 hk) h.service
  have hesv : m.esv = ESV.fromU8 esv := by rw [Message.esv, he]
  by_cases hex : ∃ r ∈ nodes, r.addr.ip = addr
  · obtain ⟨r, _, hra, hre⟩ := postTo_found ok c addr m nodes hex
    rw [hre]
    simp only [postTo, hra, ne_eq, not_true_eq_false, if_false]
    obtain ⟨h0, h1, h2, h3, h6⟩ := hs
    cases hk : m.esv <;> rw [hk] at hesv <;> rw [← hesv] at back
    case WriteRequest => exact absurd back.symm h0
    case WriteRequestResponseRequired => exact absurd back.symm h1
    case ReadRequest => exact absurd back.symm h2
    case NotificationRequest => exact absurd back.symm h3
    case WriteReadRequest => exact absurd back.symm h6
    all_goals rfl
  · rw [postTo_absent ok c addr m nodes (fun r hr he => hex ⟨r, hr, he⟩)]

theorem zeros : ∀ n < 5, beVal (List.replicate n (0 : UInt8)) = 0 := by decide

/-- C69 is false for object 000000: such an argument, of any length up to four bytes, is ignored, and the next
argument is taken for the object. -/
theorem C69_fails_object_zero (b : Build) (parseIp : List UInt8 → Option IpAddr) (prog a zero : List UInt8)
    (rest : List (List UInt8)) (addr : IpAddr) (n : Nat) (hn : n ≤ 4) (hp : prog ≠ [] ∧ prog ≠ argV ∧ prog ≠ argH)
    (ha : a ≠ argV ∧ a ≠ argH) (hip : parseIp a = some addr) (hz : IsHex zero (List.replicate n 0)) :
    postCommand b parseIp (prog :: a :: zero :: rest) = postCommand b parseIp (prog :: a :: rest) ∨ addr = .v4 0 := by
  by_cases haddr : addr = .v4 0
  · exact Or.inr haddr
  refine Or.inl ?_
  have haddr' : addr ≠ ipaddrNone := haddr
  have s1 : postArg b parseIp ⟨[], ipaddrNone, .Unknown, 0, [], []⟩ prog = .ok (some ⟨prog, ipaddrNone, .Unknown, 0, [], []⟩) := by
    unfold postArg; simp only []; rw [if_neg hp.2.1, if_neg hp.2.2, if_pos List.length_nil]
  have s2 : postArg b parseIp ⟨prog, ipaddrNone, .Unknown, 0, [], []⟩ a =
      .ok (some ⟨prog, addr, .Unknown, 0, [], []⟩) := by
    unfold postArg
    simp only []
    rw [if_neg ha.1, if_neg ha.2, if_neg (by simpa using hp.1), if_pos trivial, hip]
  have s3 : postArg b parseIp ⟨prog, addr, .Unknown, 0, [], []⟩ zero =
      .ok (some ⟨prog, addr, .Unknown, 0, [], []⟩) := by
    obtain ⟨n1, n2⟩ := isHex_not_option hz
    unfold postArg
    simp only []
    obtain ⟨v, hv, hvn⟩ := C11_toU32 b (List.replicate n 0) (by simpa using hn)
    have : v = 0 := UInt32.toNat.inj (by
      rw [hvn]
      exact zeros n (by omega))
    subst this
    rw [if_neg n1, if_neg n2, if_neg (by simpa using hp.1), if_neg haddr', if_pos trivial, (C69_hex _ _).mpr hz]
    simp only [hv, Res.bind_ok, Res.pure_eq]
  unfold postCommand
  rw [show PostArgs.init = ⟨[], ipaddrNone, .Unknown, 0, [], []⟩ from rfl, postArgs_cons s1, postArgs_cons s2,
    postArgs_cons s3, postArgs_cons s1, postArgs_cons s2]

/-! Concrete command lines: the program is `p`, the address argument `a` stands for 192.168.0.7. -/
/-- An address parser knowing one address. -/
def exParseIp (s : List UInt8) : Option IpAddr := if s = [0x61] then some (.v4 0xC0A80007) else none

/-- `p a 029001 60 80 30 E0`. -/
def exPostLine : List (List UInt8) :=
  ["p", "a", "029001", "60", "80", "30", "E0"].map (fun s => s.toUTF8.toList)

theorem isHex_of {s l : List UInt8} (h : hexDecode s = some l) : IsHex s l := (C69_hex s l).mp h

/-- C69 is false for arguments that are malformed: an empty service or property code crashes the tool, and so does
an object code of five bytes in a build with overflow checks. -/
theorem C69_fails_panic (b : Build) :
    postCommand b exParseIp (["p", "a", "029001", ""].map (fun s => s.toUTF8.toList)) = .panic ∧
    postCommand b exParseIp (["p", "a", "029001", "62", ""].map (fun s => s.toUTF8.toList)) = .panic ∧
    postCommand .dev exParseIp (["p", "a", "0000029001", "62", "80"].map (fun s => s.toUTF8.toList)) = .panic := by
  refine ⟨?_, ?_, ?_⟩
  · rcases build_cases b with rfl | rfl <;> decide +kernel
  · rcases build_cases b with rfl | rfl <;> decide +kernel
  · decide +kernel

/-- C69 is false for codes of several bytes: only the first byte is used. -/
theorem C69_fails_long_code (b : Build) :
    postCommand b exParseIp (["p", "a", "029001", "62FF", "80E0"].map (fun s => s.toUTF8.toList)) =
    postCommand b exParseIp (["p", "a", "029001", "62", "80"].map (fun s => s.toUTF8.toList)) ∧
    ∃ r, postCommand b exParseIp (["p", "a", "029001", "62FF", "80E0"].map (fun s => s.toUTF8.toList)) = .ok (some r) := by
  refine ⟨?_, ?_⟩
  · rcases build_cases b with rfl | rfl <;> decide +kernel
  · refine ⟨(.v4 0xC0A80007, PostArgs.message ⟨[0x70], .v4 0xC0A80007, .ReadRequest, 0x029001, [0x80], []⟩), ?_⟩
    rcases build_cases b with rfl | rfl <;> decide +kernel

/-- Non-vacuity of C69: a command line to which `C69_sent_partial` applies. -/
example : PostLine exParseIp exPostLine (.v4 0xC0A80007) 0x029001 0x60 [⟨0x80, [0x30]⟩, ⟨0xE0, []⟩] where
  shape := by
    refine ⟨[0x70], [0x61], "029001".toUTF8.toList, "60".toUTF8.toList,
      ["80", "30", "E0"].map (fun s => s.toUTF8.toList), by decide +kernel, by decide, by decide, by decide,
      by decide, by decide, rfl, isHex_of (by decide +kernel), isHex_of (by decide +kernel), ?_⟩
    exact .cons (isHex_of (by decide +kernel)) (isHex_of (by decide +kernel)) (.last (isHex_of (by decide +kernel)))
  address := by decide
  object := by decide
  service := by decide
  properties := by decide

/-- Non-vacuity of `C69_only`: a longer command line, with `-v`, an address and an object that are passed over, and
more bytes than needed, that is sent. -/
example : ∃ r, postCommand .dev (fun s => if s = [0x7A] then some (.v4 0) else exParseIp s)
    (["p", "-v", "z", "a", "0000", "029001", "62FF", "80E0", "", "E0"].map (fun s => s.toUTF8.toList)) = .ok (some r) ∧
    r.1 = .v4 0xC0A80007 ∧ r.2.deoj = 0x029001 ∧ r.2.properties = [⟨0x80, []⟩, ⟨0xE0, []⟩] := by
  refine ⟨(.v4 0xC0A80007, PostArgs.message ⟨[0x70], .v4 0xC0A80007, .ReadRequest, 0x029001, [0x80, 0xE0], [[]]⟩), ?_⟩
  decide +kernel

/-- The datagram of that command line. -/
example : ∃ n, exNode [] = .ok n ∧
    let c : Host Unit := ⟨n, [], []⟩
    ∃ m, postCommand .dev exParseIp exPostLine = .ok (some (.v4 0xC0A80007, m)) ∧
      (txs (postTo allOk c (.v4 0xC0A80007) m [⟨⟨.v4 5, 1⟩, []⟩, ⟨⟨.v4 0xC0A80007, 50000⟩, []⟩]).2.2).map
        (fun t => (t.to, t.bytes)) = [(⟨.v4 0xC0A80007, 3610⟩,
        [0x10, 0x81, 0, 6, 0x0E, 0xF0, 1, 2, 0x90, 1, 0x60, 2, 0x80, 1, 0x30, 0xE0, 0])] := by
  refine ⟨_, rfl, PostArgs.message ⟨[0x70], .v4 0xC0A80007, .WriteRequest, 0x029001, [0x80, 0xE0], [[0x30]]⟩, ?_, ?_⟩ <;>
    decide +kernel


/-! ## C70 -/

theorem readMessage_asks (obj : UInt32) (epc : UInt8) (h : obj.toNat < 2 ^ 24) : Asks (readMessage obj epc) obj epc := by
  refine ⟨rfl, rfl, rfl, ?_, rfl, rfl, rfl⟩
  show ((Message.new.setEsv .ReadRequest).setDeoj obj).deoj = obj
  apply UInt32.toNat.inj
  rw [(C09_header_accessors _ 0 obj .Unknown).2.2.1]
  exact Nat.mod_eq_of_lt h

/-- A node as the tools see it: its objects have the standard properties of their codes. -/
def StdNode (r : RemoteNode) : Prop := ∀ o ∈ r.objects, KeysOk o ∧
  ∀ c, (o.properties c).map attrsOf = (standardDef o.code c).map attrsOf

theorem toolObject_codes (only : Bool) (ω : HashOrder) (o : Object) (hk : KeysOk o)
    (hs : ∀ c, (o.properties c).map attrsOf = (standardDef o.code c).map attrsOf) :
    ∃ cs : List UInt8, toolObject only ω.here o = cs.map (fun c => readMessage o.code c) ∧
      cs.Perm (wanted standardDef (!only) o.code) := by
  let cond : UInt8 → Bool := fun c => match standardDef o.code c with
    | some p => !only || p.readAttr == .Required
    | none => false
  refine ⟨ω.here.filter cond, ?_, (ω.perm []).filter _⟩
  unfold toolObject Object.values
  generalize ω.here = order
  induction order with
  | nil => rfl
  | cons c order ih =>
    have hc := hs c
    cases hp : o.properties c with
    | none =>
      rw [hp] at hc
      have hd : standardDef o.code c = none := by
        cases h : standardDef o.code c with
        | none => rfl
        | some p => rw [h] at hc; cases hc
      rw [List.filterMap_cons_none hp, List.filter_cons_of_neg (by simp [cond, hd])]
      exact ih
    | some p =>
      rw [hp] at hc
      cases hd : standardDef o.code c with
      | none => rw [hd] at hc; cases hc
      | some q =>
        rw [hd] at hc
        have ha : p.readAttr = q.readAttr := by
          have := congrArg (Option.map Property.readAttr) hc
          simpa [attrsOf] using this
        have hcond : cond c = !(only && !p.isReadRequired) := by
          simp only [cond, hd, ← ha, Property.isReadRequired]
          cases only <;> cases p.readAttr <;> rfl
        rw [List.filterMap_cons_some hp]
        cases hb : (only && !p.isReadRequired) with
        | true =>
          rw [List.filterMap_cons_none (by simp [hb]), List.filter_cons_of_neg (by simp [hcond, hb])]
          exact ih
        | false =>
          rw [List.filterMap_cons_some (b := readMessage o.code p.code) (by simp [hb]),
            List.filter_cons_of_pos (by simp [hcond, hb]), List.map_cons, ih, hk c p hp]

/-- A post with what it asks for. -/
abbrev Spec.Labelled := RemoteNode × Message × UInt32 × UInt8

theorem toolObjects_asks (only : Bool) (r : RemoteNode) : ∀ (os : List Object) (ω : HashOrder),
    (∀ o ∈ os, KeysOk o ∧ ∀ c, (o.properties c).map attrsOf = (standardDef o.code c).map attrsOf) →
    ∃ T : List Labelled, (toolObjects only ω os).map (fun m => (r, m)) = T.map (fun t => (t.1, t.2.1)) ∧
      (∀ t ∈ T, Asks t.2.1 t.2.2.1 t.2.2.2) ∧
      (T.map (fun t => (t.1.addr, t.2.2))).Perm
        (os.flatMap (fun o => (wanted standardDef (!only) o.code).map (fun c => (r.addr, o.code, c))))
  | [], _, _ => ⟨[], rfl, by simp, by simp⟩
  | o :: os, ω, h => by
    obtain ⟨T, h1, h2, h3⟩ := toolObjects_asks only r os (ω.sub 1) (fun x hx => h x (by simp [hx]))
    obtain ⟨hk, hs⟩ := h o (by simp)
    obtain ⟨cs, hcs, hp⟩ := toolObject_codes only (ω.sub 0) o hk hs
    refine ⟨cs.map (fun c => (r, readMessage o.code c, o.code, c)) ++ T, ?_, ?_, ?_⟩
    · rw [toolObjects, List.map_append, List.map_append, h1, hcs, List.map_map, List.map_map]
      rfl
    · intro t ht
      rcases List.mem_append.mp ht with ht | ht
      · obtain ⟨c, _, rfl⟩ := List.mem_map.mp ht
        exact readMessage_asks _ _ (code_lt o)
      · exact h2 t ht
    · rw [List.map_append, List.flatMap_cons, List.map_map]
      exact (hp.map _).append h3

/-- The posts of both tools for a list of nodes. -/
theorem posts_asks (only : Bool) : ∀ (l : List RemoteNode) (ω : HashOrder), (∀ r ∈ l, StdNode r) →
    (∃ T : List Labelled, searchPosts only ω l = T.map (fun t => (t.1, t.2.1)) ∧
      (∀ t ∈ T, Asks t.2.1 t.2.2.1 t.2.2.2) ∧
      (T.map (fun t => (t.1.addr, t.2.2))).Perm (l.flatMap (fun r => (r.addr, 0x0EF001, 0x8A) ::
        r.objects.flatMap (fun o => (wanted standardDef (!only) o.code).map (fun c => (r.addr, o.code, c)))))) ∧
    (∃ T : List Labelled, benchRound only ω l = T.map (fun t => (t.1, t.2.1)) ∧
      (∀ t ∈ T, Asks t.2.1 t.2.2.1 t.2.2.2) ∧
      (T.map (fun t => (t.1.addr, t.2.2))).Perm (l.flatMap (fun r =>
        r.objects.flatMap (fun o => (wanted standardDef (!only) o.code).map (fun c => (r.addr, o.code, c))))))
  | [], _, _ => ⟨⟨[], rfl, by simp, by simp⟩, ⟨[], rfl, by simp, by simp⟩⟩
  | r :: rs, ω, h => by
    obtain ⟨⟨T, h1, h2, h3⟩, ⟨T', h1', h2', h3'⟩⟩ := posts_asks only rs (ω.sub 1) (fun x hx => h x (by simp [hx]))
    obtain ⟨U, u1, u2, u3⟩ := toolObjects_asks only r r.objects (ω.sub 0) (h r (by simp))
    refine ⟨⟨(r, readMessage 0x0EF001 0x8A, 0x0EF001, 0x8A) :: U ++ T, ?_, ?_, ?_⟩, ⟨U ++ T', ?_, ?_, ?_⟩⟩
    · rw [searchPosts, u1, h1, List.cons_append, List.cons_append, List.map_cons, List.map_append]
    · intro t ht
      rcases List.mem_append.mp ht with ht | ht
      · rcases List.mem_cons.mp ht with rfl | ht
        · exact readMessage_asks _ _ (by decide)
        · exact u2 t ht
      · exact h2 t ht
    · rw [List.flatMap_cons, List.map_append, List.map_cons]
      exact (u3.cons _).append h3
    · rw [benchRound, u1, h1', List.map_append]
    · intro t ht
      rcases List.mem_append.mp ht with ht | ht
      · exact u2 t ht
      · exact h2' t ht
    · rw [List.flatMap_cons, List.map_append]
      exact u3.append h3'

/-- The nodes a controller lists have standard objects. -/
theorem nodes_std (b : Build) (ω : HashOrder) {h : Host S} (hs : ∀ r ∈ h.remotes, ∀ o ∈ r.objects, StdObject o)
    {l : List RemoteNode} (hl : h.nodes b ω = .ok l) : ∀ r ∈ l, StdNode r := by
  unfold Host.nodes at hl
  generalize h.remotes = rs at hs hl
  induction rs generalizing ω l with
  | nil =>
    simp only [Host.nodesLoop, Res.ok.injEq] at hl
    subst hl; simp
  | cons r rs ih =>
    obtain ⟨c, hc, he, hlen, hsame⟩ := clone_remote b (ω.sub 0) (hs r (by simp))
    simp only [Host.nodesLoop, hc, Res.bind_ok] at hl
    obtain ⟨cs, hcs, hl⟩ := Res.bind_eq_ok.mp hl
    simp only [Res.pure_eq, Res.ok.injEq] at hl
    subst hl
    intro x hx
    rcases List.mem_cons.mp hx with rfl | hx
    · intro o ho
      obtain ⟨i, hi, rfl⟩ := List.getElem_of_mem ho
      have hi' : i < r.objects.length := by omega
      have hstd := hs r (by simp) r.objects[i] (List.getElem_mem _)
      have hsp := hsame i hi' hi
      have hcode : x.objects[i].code = r.objects[i].code := by
        have := congrArg Prod.snd he
        simp only [entry] at this
        have := congrArg (fun l => l[i]?) this
        simp only [List.getElem?_map, List.getElem?_eq_getElem hi, List.getElem?_eq_getElem hi', Option.map_some,
          Option.some.injEq] at this
        exact UInt32.toNat.inj this
      have hk : KeysOk r.objects[i] := hstd.ok.1
      obtain ⟨u₁, u₂, _, _, ht⟩ := hstd
      refine ⟨?_, ?_⟩
      · intro c p hp
        have := (hsp c).2
        rw [hp] at this
        cases hq : r.objects[i].properties c with
        | none => rw [hq] at this; cases this
        | some q =>
          rw [hq] at this
          have hcc : p.code = q.code := by
            have := congrArg (Option.map Property.code) this
            simpa [attrsOf] using this
          rw [hcc]; exact hk c q hq
      · intro c
        rw [(hsp c).2, (ht c).2, standardTable_attrs, hcode]
    · exact ih (ω.sub 1) (fun x hx => hs x (by simp [hx])) hcs x hx

/-- C70: `uechosearch`, run on what its controller has discovered, posts to every listed node one read request for the
manufacturer code of its node profile, and for every object the node announced (and its node profile) one read
request for each property of the standard object of that code whose read access is mandatory — with `-a`, for each
property — and nothing else. -/
theorem C70_search (b : Build) (ω₀ : HashOrder) (db : Database) (hdb : standardDb b ω₀ = .ok db)
    (n : Node S) (ops : List (HostOp S)) (hu : UuidsOk ops) (h : Host S) (outs : List Out)
    (hrun : (Host.newController n).run b db ops = .ok (h, outs)) (ω ω' : HashOrder) (all : Bool) :
    ∃ l, h.nodes b ω = .ok l ∧
      ∃ T : List Labelled, searchPosts (!all) ω' l = T.map (fun t => (t.1, t.2.1)) ∧
        (∀ t ∈ T, Asks t.2.1 t.2.2.1 t.2.2.2) ∧
        (T.map (fun t => (t.1.addr, t.2.2))).Perm (l.flatMap (fun r => (r.addr, 0x0EF001, 0x8A) ::
          r.objects.flatMap (fun o => (wanted standardDef all o.code).map (fun c => (r.addr, o.code, c))))) := by
  obtain ⟨l, hl, _⟩ := C47_node_list b ω₀ db hdb n ops hu h outs hrun ω
  have hi := run_known hdb hu (ms := []) (h := Host.newController n) knownInv_nil hrun
  refine ⟨l, hl, ?_⟩
  have := (posts_asks (!all) l ω' (nodes_std b ω hi.std hl)).1
  rwa [Bool.not_not] at this

/-- C70: each round of `uechobench` posts the same requests without those for the manufacturer code. -/
theorem C70_bench (b : Build) (ω₀ : HashOrder) (db : Database) (hdb : standardDb b ω₀ = .ok db)
    (n : Node S) (ops : List (HostOp S)) (hu : UuidsOk ops) (h : Host S) (outs : List Out)
    (hrun : (Host.newController n).run b db ops = .ok (h, outs)) (ω ω' : HashOrder) (all : Bool) :
    ∃ l, h.nodes b ω = .ok l ∧
      ∃ T : List Labelled, benchRound (!all) ω' l = T.map (fun t => (t.1, t.2.1)) ∧
        (∀ t ∈ T, Asks t.2.1 t.2.2.1 t.2.2.2) ∧
        (T.map (fun t => (t.1.addr, t.2.2))).Perm (l.flatMap (fun r =>
          r.objects.flatMap (fun o => (wanted standardDef all o.code).map (fun c => (r.addr, o.code, c))))) := by
  obtain ⟨l, hl, _⟩ := C47_node_list b ω₀ db hdb n ops hu h outs hrun ω
  have hi := run_known hdb hu (ms := []) (h := Host.newController n) knownInv_nil hrun
  refine ⟨l, hl, ?_⟩
  have := (posts_asks (!all) l ω' (nodes_std b ω hi.std hl)).2
  rwa [Bool.not_not] at this

/-- C70: the number of posts of `uechobench` is the sum over its rounds: every round is carried out in full. -/
theorem C70_bench_rounds (only : Bool) (nodes : Nat → List RemoteNode) : ∀ (n : Nat) (ω : HashOrder) (i : Nat),
    ∃ ωs : Nat → HashOrder, benchPosts only nodes ω i n =
      (List.range n).flatMap (fun k => benchRound only (ωs k) (nodes (i + k)))
  | 0, ω, _ => ⟨fun _ => ω, rfl⟩
  | n + 1, ω, i => by
    obtain ⟨ωs, h⟩ := C70_bench_rounds only nodes n (ω.sub 1) (i + 1)
    refine ⟨fun k => match k with | 0 => ω.sub 0 | k + 1 => ωs k, ?_⟩
    rw [benchPosts, h, List.range_succ_eq_map, List.flatMap_cons, List.flatMap_map]
    congr 1
    congr 1
    funext k
    rw [show i + 1 + k = i + k.succ by omega]

/-- C70: a request of these tools, posted from any state, puts on the wire the read frame for that property, to port
3610 of that node. -/
theorem C70_sent (ok : Nat → Bool) (c : Host S) (r : RemoteNode) (m : Message) (obj : UInt32) (epc : UInt8)
    (h : Asks m obj epc) :
    ∀ t ∈ txs (c.postMessage ok r m).2.2.2, t.to = ⟨r.addr.ip, 3610⟩ ∧
      t.bytes = Frame.encode ⟨(c.node.lastTid + 1).toNat, 0x0EF001, obj.toNat, 0x62, .single [⟨epc, []⟩]⟩ := by
  obtain ⟨hf, ht, he, hd, hp, _, _⟩ := h
  have hfp : (c.postMessage ok r m).2.1.isFormat1 = true :=
    (updateTid_fields c.node (m.setSeoj nodeProfileCode)).2.2.2.2.2.2.1.trans hf
  have hpost := C49_post ok c r m
  simp only [ht, if_true] at hpost
  obtain ⟨b1, b2, b3, b4, _, _, b7, _, b9, _⟩ := hpost
  intro t htx
  refine ⟨(b9 t htx).1, ?_⟩
  rw [(b9 t htx).2, Message.bytes_eq_encode _ hfp (by rw [b3, he]; decide)]
  unfold frameOf
  rw [b1, b2, b3, b4, b7, hd, he, hp]
  rfl

/-- C70: the name printed is that of the manufacturer in the standard table whose code the response carries, and none
if there is no such manufacturer or no data — for a response of at most four bytes. -/
theorem C70_manufacturer_partial (b : Build) (ω : HashOrder) (db : Database) (hdb : standardDb b ω = .ok db)
    (msg : Message) (hd : ∀ p, msg.properties.head? = some p → p.data.length ≤ 4) :
    ∃ name, manufacturerName b db msg = .ok name ∧
      (∀ p m, msg.properties.head? = some p → m ∈ Table.manufacturers → m.code.toNat = beVal p.data → name = m.name) ∧
      ((msg.properties = [] ∨ ∃ p, msg.properties.head? = some p ∧
        ∀ m ∈ Table.manufacturers, m.code.toNat ≠ beVal p.data) → name = "") := by
  unfold manufacturerName
  cases hp : msg.properties with
  | nil =>
    refine ⟨"", by simp, by simp, fun _ => rfl⟩
  | cons p ps =>
    rw [hp] at hd
    obtain ⟨v, hv, hvn⟩ := C11_toU32 b p.data (hd p rfl)
    simp only [List.length_cons, Nat.zero_lt_succ, if_true, index, List.getElem?_cons_zero, Res.bind_ok, hv]
    cases hf : db.findManufacture v with
    | none =>
      refine ⟨"", rfl, ?_, fun _ => rfl⟩
      intro q m hq hm hc
      simp only [List.head?_cons, Option.some.injEq] at hq
      subst hq
      have := (C21_find_manufacturer b ω db hdb v m).mpr ⟨hm, UInt32.toNat.inj (by rw [hc, hvn])⟩
      rw [hf] at this; cases this
    | some m' =>
      obtain ⟨hm', hc'⟩ := (C21_find_manufacturer b ω db hdb v m').mp hf
      refine ⟨m'.name, rfl, ?_, ?_⟩
      · intro q m hq hm hc
        simp only [List.head?_cons, Option.some.injEq] at hq
        subst hq
        have := (C21_find_manufacturer b ω db hdb v m).mpr ⟨hm, UInt32.toNat.inj (by rw [hc, hvn])⟩
        rw [hf] at this
        simp only [Option.some.injEq] at this
        rw [this]
      · rintro (h | ⟨q, hq, hno⟩)
        · cases h
        · simp only [List.head?_cons, Option.some.injEq] at hq
          subst hq
          exact absurd (by rw [hc', hvn]) (hno m' hm')

/-- C70 is false for longer data: any device can stop a tool built with overflow checks by answering with five
bytes. -/
theorem C70_fails_long_manufacturer (db : Database) (msg : Message) (p : WProperty) (ps : List WProperty)
    (hm : msg.properties = p :: ps) (hl : 5 ≤ p.data.length) : manufacturerName .dev db msg = .panic := by
  have key : ∀ (l : List Nat) (v : UInt32), 4 ∈ l → l.foldlM (toU32Step .dev p.data) v = .panic := by
    intro l
    induction l with
    | nil => intro v h; simp at h
    | cons n l ih =>
      intro v h
      rw [List.foldlM_cons]
      rcases List.mem_cons.mp h with rfl | h
      · have : toU32Step .dev p.data v 4 = .panic := by
          unfold toU32Step index
          rw [List.getElem?_eq_getElem (by omega)]
          rfl
        rw [this]; rfl
      · cases toU32Step .dev p.data v n with
        | panic => rfl
        | ok w => exact ih w h
  unfold manufacturerName bytesToU32
  rw [hm]
  simp only [List.length_cons, Nat.zero_lt_succ, if_true, index, List.getElem?_cons_zero, Res.bind_ok,
    key _ 0 (List.mem_range.mpr (by omega : 4 < p.data.length))]
  rfl

/-- C70: printing the data of a response never panics: it is that of the first property. -/
theorem C70_printed (msg : Message) :
    printedData msg = .ok ((msg.properties.head?.map (fun p => p.data)).getD []) := by
  unfold printedData Message.opc Message.property index
  cases msg.properties with
  | nil => rfl
  | cons p ps => rfl

/-- C70: the options of `uechosearch`: `-h` anywhere stops it; otherwise it reads all properties exactly if `-a` is
given. -/
theorem C70_search_args : ∀ (args : List (List UInt8)) (only : Bool),
    (argH ∈ args → searchArgs only args = none) ∧
    (argH ∉ args → searchArgs only args = some (only && decide (argA ∉ args)))
  | [], only => by simp [searchArgs]
  | a :: as, only => by
    have ih := C70_search_args as
    have d1 : argV ≠ argA := by decide
    have d2 : argV ≠ argH := by decide
    have d3 : argA ≠ argH := by decide
    unfold searchArgs
    by_cases h1 : a = argV
    · subst h1
      rw [if_pos rfl]
      have := ih only
      simp only [List.mem_cons, d1.symm, d2.symm, false_or]
      exact this
    · rw [if_neg h1]
      by_cases h2 : a = argA
      · subst h2
        rw [if_pos rfl]
        have := ih false
        simp only [List.mem_cons, d3.symm, false_or, true_or, not_true_eq_false, decide_false, Bool.and_false]
        simpa using this
      · rw [if_neg h2]
        by_cases h3 : a = argH
        · subst h3
          rw [if_pos rfl]
          simp
        · rw [if_neg h3]
          have := ih only
          simp only [List.mem_cons, Ne.symm h3, Ne.symm h2, false_or]
          exact this

/-- C70 is false for malformed options: `-n` without a number crashes `uechobench`. -/
theorem C70_fails_bench_args (parseCount : List UInt8 → Option Int) (only : Bool) (cnt : Int) (prog : List UInt8)
    (hp : prog ∉ [argV, argN, argA, argH]) :
    benchArgs parseCount only cnt [prog, argN] = .panic ∧
    ∀ c, parseCount c = none → benchArgs parseCount only cnt [prog, argN, c] = .panic := by
  simp only [List.mem_cons, List.not_mem_nil, or_false, not_or] at hp
  have d1 : argN ≠ argV := by decide
  refine ⟨?_, ?_⟩
  · simp [benchArgs, hp, d1]
  · intro c hc
    simp [benchArgs, hp, d1, hc]

/-- C70: the options of `uechobench`: the number of rounds is the last one given with `-n`, or 1; all properties are
read exactly if `-a` is given; `-h` as an option prints the usage. -/
theorem C70_bench_args (parseCount : List UInt8 → Option Int) (opts : List BenchOpt)
    (hok : ∀ o ∈ opts, o.Ok parseCount) :
    benchArgs parseCount true 1 (opts.flatMap BenchOpt.args) =
      .ok (some (decide (BenchOpt.all ∉ opts), ((opts.filterMap BenchOpt.rounds).getLast?).getD 1)) ∧
    ∀ rest, benchArgs parseCount true 1 (opts.flatMap BenchOpt.args ++ argH :: rest) = .ok none := by
  have key : ∀ (opts : List BenchOpt), (∀ o ∈ opts, o.Ok parseCount) → ∀ (only : Bool) (cnt : Int),
      (benchArgs parseCount only cnt (opts.flatMap BenchOpt.args) =
        .ok (some (only && decide (BenchOpt.all ∉ opts), ((opts.filterMap BenchOpt.rounds).getLast?).getD cnt))) ∧
      ∀ rest, benchArgs parseCount only cnt (opts.flatMap BenchOpt.args ++ argH :: rest) = .ok none := by
    have d1 : argN ≠ argV := by decide
    have d2 : argA ≠ argV := by decide
    have d3 : argA ≠ argN := by decide
    have d4 : argH ≠ argV := by decide
    have d5 : argH ≠ argN := by decide
    have d6 : argH ≠ argA := by decide
    have sv : ∀ only cnt as, benchArgs parseCount only cnt (argV :: as) = benchArgs parseCount only cnt as := by
      intro only cnt as; rw [benchArgs.eq_def]; simp
    have sa : ∀ only cnt as, benchArgs parseCount only cnt (argA :: as) = benchArgs parseCount false cnt as := by
      intro only cnt as; rw [benchArgs.eq_def]; simp [d2, d3]
    have sh : ∀ only cnt as, benchArgs parseCount only cnt (argH :: as) = .ok none := by
      intro only cnt as; rw [benchArgs.eq_def]; simp [d4, d5, d6]
    have so : ∀ only cnt a as, a ∉ [argV, argN, argA, argH] →
        benchArgs parseCount only cnt (a :: as) = benchArgs parseCount only cnt as := by
      intro only cnt a as ho
      simp only [List.mem_cons, List.not_mem_nil, or_false, not_or] at ho
      rw [benchArgs.eq_def]; simp [ho]
    intro opts
    induction opts with
    | nil => intro _ only cnt; simp [benchArgs, sh]
    | cons o opts ih =>
      intro hok only cnt
      have ho := hok o (by simp)
      have ih := ih (fun x hx => hok x (by simp [hx]))
      cases o with
      | verbose =>
        have := ih only cnt
        simpa [BenchOpt.args, sv, BenchOpt.rounds] using this
      | all =>
        have := ih false cnt
        simpa [BenchOpt.args, sa, BenchOpt.rounds] using this
      | other a =>
        have := ih only cnt
        simpa [BenchOpt.args, so _ _ _ _ ho, BenchOpt.rounds] using this
      | times a n =>
        have ho : parseCount a = some n := ho
        have := ih only n
        simp [BenchOpt.args, benchArgs, BenchOpt.rounds, d1, ho]
        refine ⟨?_, this.2⟩
        rw [this.1]
        cases h : (opts.filterMap BenchOpt.rounds) with
        | nil => simp
        | cons x xs => simp [List.getLast?_cons]
  simpa using key opts hok true 1

/-- Options of the benchmark tool: `p -n 5 -a -n 7`. -/
example : benchArgs (fun s => if s = [0x35] then some 5 else if s = [0x37] then some 7 else none) true 1
    [[0x70], argN, [0x35], argA, argN, [0x37]] = .ok (some (false, 7)) := by decide

/-- What the tools read from a lighting and from a node profile. -/
example : wanted standardDef false 0x029101 = [0x80, 0x81, 0x82, 0x88, 0x8A, 0x9D, 0x9E, 0x9F] ∧
    wanted standardDef false 0x0EF001 = [0x80, 0x81, 0x82, 0x88, 0x8A, 0x9D, 0x9E, 0x9F, 0xD3, 0xD4, 0xD6, 0xD7] ∧
    (wanted standardDef true 0x029101).length = 25 := by
  decide +kernel

/-- The name of a known manufacturer, of an unknown one, and the crash. -/
example :
    manufacturerName .dev ⟨Table.manufacturers, []⟩ (Message.new.addProperty ⟨0x8A, [0, 0, 0x0B]⟩) =
      .ok "Panasonic Holdings Corporation" ∧
    manufacturerName .dev ⟨Table.manufacturers, []⟩ (Message.new.addProperty ⟨0x8A, [0xFF, 0xFF, 0x0B]⟩) = .ok "" ∧
    manufacturerName .dev ⟨Table.manufacturers, []⟩ (Message.new.addProperty ⟨0x8A, [0, 0, 0, 0, 0x0B]⟩) = .panic := by
  decide +kernel

/-- C69, C70: the options are written `-v`, `-h`, `-a` and `-n`. -/
theorem C70_options : argV = word "-v" ∧ argH = word "-h" ∧ argA = word "-a" ∧ argN = word "-n" := by decide

end Uecho
