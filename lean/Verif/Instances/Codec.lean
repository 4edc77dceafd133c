import Verif.Props.Codec
import Verif.Props.Basic
import Verif.Props.Builder
import Verif.Props.FromBytes
/-!
# Instances of the theorems about messages and bytes

Every example applies a theorem to a concrete case, with all its hypotheses proved: none of them is vacuous.
-/
namespace Uecho
open Spec

def exFrame : Frame := ⟨1, 0x05FF01, 0x013001, 0x6E, .setGet [⟨0x80, [1]⟩] [⟨0xB0, []⟩]⟩
/-- A message with a header that is not the one of format 1. -/
def exForeign : Message := { exRead with ehd := (0x10, 0x82) }
def exUuid (x : UInt8) : List UInt8 := [0, 1, 2, 3, 4, 5, 6, 7, 8, 9, 10, 11, 12, 13, 14, x]

example := C01_encode_decode_partial exRead (by decide) (by decide) (by decide)
example := C01_encode_decode_partial exWR (by decide) (by decide) (by decide)
example := C02_decode_encode_partial (exRead.bytes ++ [9, 9]) _ rfl (by decide)
example := C02_nothing_lost (exWR.bytes ++ [9]) _ rfl
example := C03_no_panic_partial Message.new exRead.bytes (Or.inr (by
  intro e he
  simp only [show exRead.bytes[10]? = some 0x62 from by decide, Option.some.injEq] at he
  subst he
  decide))
example := C05_truncated_frame_rejected exRead exFrame (by decide) (exFrame.encode.take 15)
  ⟨exFrame.encode.drop 15, by decide, (List.take_append_drop 15 _).symm⟩
example := C05_truncated_message_rejected Message.new exRead (by decide) (exRead.bytes.take 14)
  ⟨exRead.bytes.drop 14, by decide, (List.take_append_drop 14 _).symm⟩
example := C05_other_header_rejected Message.new exForeign (by decide)
example := C06_frame_unambiguous exFrame exFrame [1] [1] (by decide) (by decide) rfl
example := C06_encoding_unambiguous exForeign exForeign (by decide) (by decide) [] (by decide)
example := C07_clone_partial exWR (by decide) (by decide) (by decide)
example := C07_clone_panics_for_0x5E exWRErr (by decide) (by decide) (by decide)
example := C07_clone_loses_sender (exRead.setFrom ⟨.v4 0xC0A80001, 3610⟩) (by decide) (by decide) (by decide)
example := C08_equals_partial exRead (exRead.setTid 3) (by decide) (by decide)
example := C11_fromU32 .dev 0x12345678 [9, 9, 9] (by decide)
example := C11_toU32 .dev [1, 2, 3, 4] (by decide)
example := C11_read_after_write .dev .release 0x12345678 [9, 9] (by decide)
example := C11_write_after_read .dev .release [1, 2, 3] [9, 9, 9] (by decide) rfl
example := C12_no_panic_partial .release [1, 2, 3, 4, 5, 6] 0x12345678 (Or.inl rfl)
example := C12_no_panic_partial .dev [1, 2, 3, 4] 0x12345678 (Or.inr (by decide))
example := C13_oid_layout .dev 0xFFFFFF (exUuid 15) rfl
example := C13_oid_distinct .dev 0xFFFFFF 0x01FFFFFF (exUuid 15) (9 :: (exUuid 15).drop 1) _ rfl rfl rfl (by decide)
example := C52_count_truncated { exRead with properties := List.replicate 300 ⟨0x80, [1]⟩ } (by decide) (by decide)
  (by intro p hp; rw [List.eq_of_mem_replicate hp]; decide)
example := C52_data_truncated { exRead with properties := [⟨0x80, List.replicate 300 1⟩] } (by decide) (by decide) 0x80
  (List.replicate 300 1) rfl
example := C52_in_range_partial exWR (by decide) (by decide) (by decide)
example := C62_display_unambiguous exRead exRead (by decide) (by decide) rfl
example := C61_encoding_partial [.addProperty ⟨0x80, []⟩, .setTid 3, .setEsv .ReadRequest, .setDeoj 0xFF029101, .setTid 9]
  (by decide)
example := C80_no_frame [0x10, 0x82, 0, 7, 1, 2, 3] (Or.inl (by decide))

/-- Three properties are announced, the second one is cut off. -/
theorem exReadable : Readable 3 [0x80, 1, 0x30, 0xB0, 2, 0x41] [⟨0x80, [0x30]⟩] [0xB0, 2, 0x41] := by
  refine ⟨rfl, by decide, by decide, ?_⟩
  intro _ q r hq he
  have h1 := WProperty.parse_encProp q r hq
  rw [← he] at h1
  revert h1
  rw [WProperty.parse_eq]
  simp

example := C80_single 1 0x029001 0x05FF01 0x72 3 _ _ _ (by decide) (by decide) (by decide) (by decide) exReadable
example := C80_double 1 0x029001 0x05FF01 0x6E 3 _ _ _ (by decide) (by decide) (by decide) (by decide) exReadable

end Uecho
