/-
Bytes and little-endian integers.

Models the use of `to_le_bytes` / `from_le_bytes` / `nom::number::complete::le_*`
throughout /repo/src/vpx (for instance /repo/src/vpx/biff.rs:124-170 and 569-602).
-/
namespace Vpin

/-- A file, stream or record payload: `Vec<u8>` / `&[u8]` in the Rust code. (used in /repo/src/vpx/biff.rs:22-29) -/
abbrev Bytes := List UInt8

/-- Why a Rust call did not return a value.
`panic`: the Rust code panics (slice out of range, `unwrap`, `assert!`, arithmetic
underflow in a debug build, explicit `panic!`).
`io`: the Rust code returns `Err(..)`.
`fuel`: the *model* ran out of fuel; proved never to happen (`Props/Termination.lean`). (used in
/repo/src/vpx/biff.rs:87-91) -/
inductive Err where
  | panic
  | io
  | fuel
  deriving DecidableEq, Repr

/-- Result of a Rust call that may panic or fail. (used in /repo/src/vpx/biff.rs:87-91) -/
abbrev Res (α : Type) := Except Err α

deriving instance DecidableEq for Except

/-- `f32` is represented by its IEEE-754 bit pattern (`f32::to_bits`). (used in /repo/src/vpx/biff.rs:159-170) -/
abbrev F32 := UInt32
/-- `f64` is represented by its IEEE-754 bit pattern (`f64::to_bits`). (used in /repo/src/vpx/biff.rs:273-278) -/
abbrev F64 := UInt64
/-- `String`: a sequence of Unicode scalar values. (used in /repo/src/vpx/biff.rs:235-238) -/
abbrev Str := List Char

/-- byte `k` (0 = least significant) of a natural number (used in /repo/src/vpx/biff.rs:589-592) -/
def byteAt (n k : Nat) : UInt8 := UInt8.ofNat (n / 256 ^ k % 256)

/-- `u16::to_le_bytes` (used in /repo/src/vpx/biff.rs:579-582) -/
def le16 (x : UInt16) : Bytes := [byteAt x.toNat 0, byteAt x.toNat 1]
/-- `u32::to_le_bytes` (also `f32::to_le_bytes` on the bit pattern) (used in /repo/src/vpx/biff.rs:589-592) -/
def le32 (x : UInt32) : Bytes :=
  [byteAt x.toNat 0, byteAt x.toNat 1, byteAt x.toNat 2, byteAt x.toNat 3]
/-- `u64::to_le_bytes` (also `f64::to_le_bytes` on the bit pattern) (used in /repo/src/vpx/biff.rs:301-306) -/
def le64 (x : UInt64) : Bytes :=
  [byteAt x.toNat 0, byteAt x.toNat 1, byteAt x.toNat 2, byteAt x.toNat 3,
   byteAt x.toNat 4, byteAt x.toNat 5, byteAt x.toNat 6, byteAt x.toNat 7]

/-- value of a little-endian byte sequence (used in /repo/src/vpx/biff.rs:142-146) -/
def leNat : Bytes → Nat
  | [] => 0
  | b :: bs => b.toNat + 256 * leNat bs

/-- `u16::from_le_bytes` (used in /repo/src/vpx/biff.rs:130-134) -/
def ofLe16 (bs : Bytes) : UInt16 := UInt16.ofNat (leNat bs)
/-- `u32::from_le_bytes` (used in /repo/src/vpx/biff.rs:142-146) -/
def ofLe32 (bs : Bytes) : UInt32 := UInt32.ofNat (leNat bs)
/-- `u64::from_le_bytes` (used in /repo/src/vpx/biff.rs:301-306) -/
def ofLe64 (bs : Bytes) : UInt64 := UInt64.ofNat (leNat bs)

end Vpin
