import Verif.Model.Res
/-!
# `src/util/bytes.rs` and `src/util/oid.rs`
-/
namespace Uecho

/-- One iteration of the loop of `Bytes::from_u32` (src/util/bytes.rs:19-25):
`bytes[(bytes_size - 1) - n] = ((val >> (n * 8)) & 0xFF) as u8`.
`List.set` models the slice store; the index is always in range. -/
def fromU32Step (b : Build) (val : UInt32) (size : Nat) (buf : List UInt8) (n : Nat) :
    Res (List UInt8) := do
  let s ← shrU32 b val (n * 8)
  pure (buf.set ((size - 1) - n) (s &&& 0xFF).toUInt8)

/-- `Bytes::from_u32` (src/util/bytes.rs:19-25): fills the buffer, returning the new buffer. -/
def bytesFromU32 (b : Build) (val : UInt32) (buf : List UInt8) : Res (List UInt8) :=
  (List.range buf.length).foldlM (fromU32Step b val buf.length) buf

/-- One iteration of the loop of `Bytes::to_u32` (src/util/bytes.rs:26-34):
`val += (bytes[(bytes_size - 1) - n] as u32) << (n * 8)`. -/
def toU32Step (b : Build) (bytes : List UInt8) (val : UInt32) (n : Nat) : Res UInt32 := do
  let x ← index bytes ((bytes.length - 1) - n)
  let s ← shlU32 b x.toUInt32 (n * 8)
  addU32 b val s

/-- `Bytes::to_u32` (src/util/bytes.rs:26-34). -/
def bytesToU32 (b : Build) (bytes : List UInt8) : Res UInt32 :=
  (List.range bytes.length).foldlM (toU32Step b bytes) 0

/-- `OID::new` (src/util/oid.rs:26-47) with the `std` feature; `uuid` is the 16-byte result of
`Uuid::new_v4().into_bytes()`. The loop at lines 42-44 stores `v4_bytes[len - n - 1]` at
`oid[4 + n]` for `n` in `0..=12`. -/
def oidNew (b : Build) (code : UInt32) (uuid : List UInt8) : Res (List UInt8) := do
  let oid := (List.replicate 17 (0 : UInt8)).set 0 0xFE
  let man ← bytesFromU32 b code (List.replicate 3 0)
  let m0 ← index man 0
  let m1 ← index man 1
  let m2 ← index man 2
  let oid := ((oid.set 1 m0).set 2 m1).set 3 m2
  (List.range 13).foldlM (fun (oid : List UInt8) (n : Nat) => do
    let x ← index uuid (uuid.length - n - 1)
    pure (oid.set (4 + n) x)) oid

end Uecho
