import Verif.Props.Property
import Verif.Spec.Builder
/-!
# C61, C62: building and printing messages
-/
namespace Uecho
open Spec

theorem built_concat (ops : List MessageOp) (op : MessageOp) : built (ops ++ [op]) = op.run (built ops) := by
  simp [built]

/-- C61: whatever the calls and their order, the accessors of the built message return the last header values
set, the properties in insertion order and the last sender. -/
theorem C61_accessors (ops : List MessageOp) :
    frameOf (built ops) = describedFrame ops ∧ (built ops).isFormat1 = true ∧
    (built ops).sender = lastSet MessageOp.fromArg ⟨.v4 0, 0⟩ ops ∧
    (built ops).opc = (addedProps MessageOp.propArg ops).length ∧
    (built ops).opcSet = (addedProps MessageOp.setArg ops).length ∧
    (built ops).opcGet = (addedProps MessageOp.getArg ops).length ∧
    (∀ n, (built ops).property n =
      match (addedProps MessageOp.propArg ops)[n]? with
      | some p => .ok p
      | none => .panic) ∧
    (∀ n, (built ops).propertySet n =
      match (addedProps MessageOp.setArg ops)[n]? with
      | some p => .ok p
      | none => .panic) ∧
    (∀ n, (built ops).propertyGet n =
      match (addedProps MessageOp.getArg ops)[n]? with
      | some p => .ok p
      | none => .panic) := by
  have key : (built ops).ehd = (0x10, 0x81) ∧
      (built ops).tid.toNat = lastSet MessageOp.tidArg 0 ops ∧
      (built ops).seoj.toNat = lastSet MessageOp.seojArg 0 ops ∧
      (built ops).deoj.toNat = lastSet MessageOp.deojArg 0 ops ∧
      (built ops).esvByte = serviceOf ops ∧
      (built ops).properties = addedProps MessageOp.propArg ops ∧
      (built ops).setProperties = addedProps MessageOp.setArg ops ∧
      (built ops).getProperties = addedProps MessageOp.getArg ops ∧
      (built ops).sender = lastSet MessageOp.fromArg ⟨.v4 0, 0⟩ ops := by
    induction ops using reverse_induction with
    | nil => decide
    | snoc ops op ih =>
      obtain ⟨h1, h2, h3, h4, h5, h6, h7, h8, h9⟩ := ih
      have hc := C09_header_accessors (built ops)
      simp only [built_concat, serviceOf, lastSet_concat, addedProps, List.filterMap_append] at *
      cases op with
      | setTid t =>
        have := hc t 0 .Unknown
        refine ⟨h1, ?_, h3, h4, h5, (h6.trans (List.append_nil _).symm), (h7.trans (List.append_nil _).symm), (h8.trans (List.append_nil _).symm), h9⟩
        simp [MessageOp.run, this.1, MessageOp.tidArg]
      | setSeoj c =>
        have := hc 0 c .Unknown
        refine ⟨h1, h2, ?_, h4, h5, (h6.trans (List.append_nil _).symm), (h7.trans (List.append_nil _).symm), (h8.trans (List.append_nil _).symm), h9⟩
        simp [MessageOp.run, this.2.1, MessageOp.seojArg]
      | setDeoj c =>
        have := hc 0 c .Unknown
        refine ⟨h1, h2, h3, ?_, h5, (h6.trans (List.append_nil _).symm), (h7.trans (List.append_nil _).symm), (h8.trans (List.append_nil _).symm), h9⟩
        simp [MessageOp.run, this.2.2.1, MessageOp.deojArg]
      | setEsv e =>
        exact ⟨h1, h2, h3, h4, rfl, (h6.trans (List.append_nil _).symm), (h7.trans (List.append_nil _).symm), (h8.trans (List.append_nil _).symm), h9⟩
      | addProperty p =>
        refine ⟨h1, h2, h3, h4, h5, ?_, (h7.trans (List.append_nil _).symm), (h8.trans (List.append_nil _).symm), h9⟩
        show (built ops).properties ++ [p] = _
        rw [h6]; rfl
      | addPropertySet p =>
        refine ⟨h1, h2, h3, h4, h5, (h6.trans (List.append_nil _).symm), ?_, (h8.trans (List.append_nil _).symm), h9⟩
        show (built ops).setProperties ++ [p] = _
        rw [h7]; rfl
      | addPropertyGet p =>
        refine ⟨h1, h2, h3, h4, h5, (h6.trans (List.append_nil _).symm), (h7.trans (List.append_nil _).symm), ?_, h9⟩
        show (built ops).getProperties ++ [p] = _
        rw [h8]; rfl
      | setFrom a =>
        exact ⟨h1, h2, h3, h4, h5, (h6.trans (List.append_nil _).symm), (h7.trans (List.append_nil _).symm), (h8.trans (List.append_nil _).symm), rfl⟩
  obtain ⟨h1, h2, h3, h4, h5, h6, h7, h8, h9⟩ := key
  refine ⟨?_, ?_, h9, ?_, ?_, ?_, ?_, ?_, ?_⟩
  · simp only [frameOf, describedFrame, h2, h3, h4, h5, h6, h7, h8]
  · simp [Message.isFormat1, h1]
  · simp only [Message.opc, h6]
  · simp only [Message.opcSet, h7]
  · simp only [Message.opcGet, h8]
  · intro n
    simp only [Message.property, index, h6]
    cases (addedProps MessageOp.propArg ops)[n]? <;> rfl
  · intro n
    simp only [Message.propertySet, index, h7]
    cases (addedProps MessageOp.setArg ops)[n]? <;> rfl
  · intro n
    simp only [Message.propertyGet, index, h8]
    cases (addedProps MessageOp.getArg ops)[n]? <;> rfl

/-- C61: a property of a message built through the API has the last code and the last data set, independently of each
other; its size is the number of its data bytes; copies are equal to it. -/
theorem C61_property (c : UInt8) (d : List UInt8) (ops : List WPropertyOp) :
    let p := ops.foldl WPropertyOp.run (WProperty.ofParts c d)
    p.code = lastSet WPropertyOp.codeArg c ops ∧ p.data = lastSet WPropertyOp.dataArg d ops ∧
    p.size = (lastSet WPropertyOp.dataArg d ops).length ∧ p.clone = p ∧ p.equals p.clone = true := by
  intro p
  have key : p.code = lastSet WPropertyOp.codeArg c ops ∧ p.data = lastSet WPropertyOp.dataArg d ops := by
    show (ops.foldl WPropertyOp.run (WProperty.ofParts c d)).code = _ ∧
      (ops.foldl WPropertyOp.run (WProperty.ofParts c d)).data = _
    induction ops using reverse_induction with
    | nil => exact ⟨rfl, rfl⟩
    | snoc ops op ih =>
      simp only [lastSet_concat, List.foldl_append, List.foldl_cons, List.foldl_nil] at *
      cases op with
      | setCode c => exact ⟨rfl, ih.2⟩
      | setData d => exact ⟨ih.1, rfl⟩
  refine ⟨key.1, key.2, ?_, rfl, ?_⟩
  · rw [← key.2]; rfl
  · simp [WProperty.equals, WProperty.clone, WProperty.size]

/-- C61 (all services but 0x5E): a message built through the API is encoded as the frame its calls describe.
Missing for the full property: service 0x5E, for which `C61_fails_for_0x5E` shows that the encoding is not the
described frame. -/
theorem C61_encoding_partial (ops : List MessageOp) (h : serviceOf ops ≠ 0x5E) :
    (built ops).bytes = (describedFrame ops).encode := by
  obtain ⟨h1, h2, _⟩ := C61_accessors ops
  have he : (built ops).esvByte = serviceOf ops := congrArg Frame.esv h1
  rw [← h1]
  exact Message.bytes_eq_encode _ h2 (by rw [he]; exact h)

/-- C61 is false for service 0x5E: the properties added with `add_property_set`/`add_property_get` are not
encoded. -/
theorem C61_fails_for_0x5E : ∃ ops, (built ops).bytes ≠ (describedFrame ops).encode :=
  ⟨[.setEsv .WriteReadRequestError, .addPropertySet ⟨0x80, [1]⟩], by decide⟩

example : serviceOf [.addProperty ⟨0x80, []⟩, .setTid 3, .setEsv .ReadRequest, .setDeoj 0xFF029101, .setTid 9,
      .addProperty ⟨0xB0, [1, 2]⟩] ≠ 0x5E ∧
    (built [.addProperty ⟨0x80, []⟩, .setTid 3, .setEsv .ReadRequest, .setDeoj 0xFF029101, .setTid 9,
      .addProperty ⟨0xB0, [1, 2]⟩]).bytes =
      [0x10, 0x81, 0, 9, 0, 0, 0, 2, 0x91, 1, 0x62, 2, 0x80, 0, 0xB0, 2, 1, 2] := by decide

/-! ## C62 -/

theorem hexByte_val (x : UInt8) : ∃ a b, Message.hexByte x = [a, b] ∧ hexVal a = some (x.toNat / 16) ∧
    hexVal b = some (x.toNat % 16) := by
  have h : ∀ n : Fin 16, hexVal (Nat.digitChar n.val).toUpper = some n.val := by decide +kernel
  have hx := x.toNat_lt
  refine ⟨_, _, rfl, ?_, ?_⟩
  · exact h ⟨x.toNat / 16, by omega⟩
  · exact h ⟨x.toNat % 16, by omega⟩

theorem display_eq (m : Message) : m.display = m.bytes.flatMap Message.hexByte := by
  have : ∀ (l : List UInt8) (acc : List Char),
      l.foldl (fun acc x => acc ++ Message.hexByte x) acc = acc ++ l.flatMap Message.hexByte := by
    intro l
    induction l with
    | nil => simp
    | cons x l ih => intro acc; rw [List.foldl_cons, ih]; simp
  have h := this m.bytes []
  rw [List.nil_append] at h
  exact h

/-- C62: the printed form of a message is its wire encoding in hexadecimal, two upper-case digits per byte:
reading it back gives exactly the encoded bytes. -/
theorem C62_display (m : Message) : unhex m.display = some m.bytes ∧ m.display.length = 2 * m.bytes.length := by
  rw [display_eq]
  induction m.bytes with
  | nil => exact ⟨rfl, rfl⟩
  | cons x l ih =>
    obtain ⟨a, b, h, ha, hb⟩ := hexByte_val x
    rw [List.flatMap_cons, h]
    refine ⟨?_, by simp [ih.2]; omega⟩
    show unhex (a :: b :: l.flatMap Message.hexByte) = _
    simp only [unhex, ha, hb, ih.1]
    show some (UInt8.ofNat (x.toNat / 16 * 16 + x.toNat % 16) :: l) = _
    rw [show x.toNat / 16 * 16 + x.toNat % 16 = x.toNat by omega, UInt8.ofNat_toNat]

/-- C62: hence two in-range messages that print alike have the same TID, object codes, service and properties
(of the lists that service puts on the wire). -/
theorem C62_display_unambiguous (m n : Message) (sm : SizesOk m) (sn : SizesOk n) (h : m.display = n.display) :
    m.ehd = n.ehd ∧ m.tid = n.tid ∧ m.seoj = n.seoj ∧ m.deoj = n.deoj ∧ m.esvByte = n.esvByte ∧
    (m.esvByte = 0x6E ∨ m.esvByte = 0x7E →
      m.setProperties = n.setProperties ∧ m.getProperties = n.getProperties) ∧
    (m.esvByte ≠ 0x6E → m.esvByte ≠ 0x7E → m.properties = n.properties) := by
  have h1 := (C62_display m).1
  rw [h, (C62_display n).1] at h1
  have hb : n.bytes = m.bytes := Option.some.inj h1
  exact (C06_encoding_unambiguous m n sm sn [] (by simp [hb])).2

/-- C62: a service is printed as its ECHONET Lite code, two upper-case hexadecimal digits; services that print alike are
the same. -/
theorem C62_service (e : ESV) : unhex (Message.esvDisplay e) = some [e.toU8] ∧ (Message.esvDisplay e).length = 2 ∧
    ∀ e', Message.esvDisplay e' = Message.esvDisplay e → e' = e := by
  refine ⟨by cases e <;> decide +kernel, rfl, ?_⟩
  intro e' h
  have h1 : ∀ e : ESV, unhex (Message.esvDisplay e) = some [e.toU8] := by intro e; cases e <;> decide +kernel
  have h2 := h1 e'
  rw [h, h1 e] at h2
  simp only [Option.some.injEq, List.cons.injEq, and_true] at h2
  have h3 : ∀ e : ESV, ESV.fromU8 e.toU8 = e := by intro e; cases e <;> decide +kernel
  rw [← h3 e', ← h2, h3]

example : exRead.isFormat1 = true ∧ SizesOk exRead ∧
    String.ofList exRead.display = "1081123405FF0101300162028000B003010203" := by decide +kernel

end Uecho
