import Verif.Model.Float
/-
/repo/src/vpx/math/quantize.rs
-/
namespace Vpin

/-- `i as f32` for a `u32`: nearest, ties to even (used in /repo/src/vpx/math/quantize.rs:30) -/
def u32ToF32 (i : UInt32) : F32 := f32OfFrac i.toNat 1

/-- `precise_divide(a, n)` for non-negative finite `a` and a positive integer `n`:
`(a as f64 / n as f64) as f32`, /repo/src/vpx/math/quantize.rs:29-31.
The conversions to f64 are exact; the quotient is rounded to f64 and then to f32. -/
def preciseDivide (a : F32) (n : Nat) : F32 :=
  let q := f64OfFrac a.mag (2 ^ 149 * n)
  f32OfFrac q.mag (2 ^ 1074)

/-- `f32::min(x, y)` for non-negative finite numbers: the bit patterns are ordered like the
numbers (used in /repo/src/vpx/math/quantize.rs:36) -/
def f32MinPos (x y : F32) : F32 := if x ≤ y then x else y

/-- `dequantize_unsigned::<8>`, /repo/src/vpx/math/quantize.rs:60-64 -/
@[irreducible] def dequantize8 (i : UInt32) : F32 := f32MinPos (preciseDivide (u32ToF32 i) 255) f32One

/-- `x * 2^k` for `x >= 0`, overflowing to infinity (used in /repo/src/vpx/math/quantize.rs:68-73) -/
def f32Scale (x : F32) (n : Nat) : F32 :=
  if x.isFinite then f32OfFrac (x.mag * n) (2 ^ 149) else x

/-- `x as u32` for `x >= 0`: truncation, saturating (used in /repo/src/vpx/math/quantize.rs:68-73) -/
def f32ToU32 (x : F32) : UInt32 :=
  if x.isFinite then UInt32.ofNat (min (2 ^ 32 - 1) (x.mag / 2 ^ 149)) else 0xffffffff

/-- `(x * np1).min(n) as u32` after `assert!(x >= 0.0)`: the common shape of the four quantising
functions, /repo/src/vpx/math/quantize.rs:40-53,66-72. The assertion panics for negative numbers
and NaN; -0.0 behaves as 0.0. `n` and `np1` are small enough to be exact as f32. -/
def quantizeN (n np1 : Nat) (x : F32) : Res UInt32 :=
  if x.ge0 then
    .ok (f32ToU32 (f32MinPos (f32Scale x.abs np1) (f32OfFrac n 1)))
  else .error .panic

/-- `precise_divide(i, n).min(1.0)`: the common shape of the dequantising functions,
/repo/src/vpx/math/quantize.rs:33-37,55-64 -/
def dequantizeN (n : Nat) (i : UInt32) : F32 := f32MinPos (preciseDivide (u32ToF32 i) n) f32One

/-- `quantize_unsigned::<8>`, /repo/src/vpx/math/quantize.rs:66-72; the assertion `x >= 0.0`
panics for negative numbers and NaN. `(x * 256.0).min(255.0) as u32`; -0.0 behaves as 0.0. -/
@[irreducible] def quantize8 (x : F32) : Res UInt32 :=
  if x.ge0 then
    .ok (f32ToU32 (f32MinPos (f32Scale (UInt32.ofNat (x.toNat % 0x80000000)) 256) 0x437f0000))
  else .error .panic

/-- `quantize_unsigned::<BITS>`, /repo/src/vpx/math/quantize.rs:66-72. Every use has `BITS = 8`;
modelled for `BITS <= 24`, where `n` is exact as f32. -/
def quantizeUnsigned (bits : Nat) (x : F32) : Res UInt32 := quantizeN (2 ^ bits - 1) (2 ^ bits) x
/-- `dequantize_unsigned::<BITS>`, /repo/src/vpx/math/quantize.rs:60-64 -/
def dequantizeUnsigned (bits : Nat) (i : UInt32) : F32 := dequantizeN (2 ^ bits - 1) i

/-- `quantize_u8(bits, x)`, /repo/src/vpx/math/quantize.rs:47-53: the conversion to `u8` saturates.
Used with 7 and 8 bits. -/
def quantizeU8 (bits : Nat) (x : F32) : Res UInt8 := do
  let v ← quantizeN (2 ^ bits - 1) (2 ^ bits) x
  return UInt8.ofNat (min 255 v.toNat)
/-- `dequantize_u8(bits, i)`, /repo/src/vpx/math/quantize.rs:55-58 -/
def dequantizeU8 (bits : Nat) (i : UInt8) : F32 := dequantizeN (2 ^ bits - 1) i.toUInt32

/-- `quantize_unsigned_percent`, /repo/src/vpx/math/quantize.rs:39-45 -/
def quantizePercent (x : F32) : Res UInt32 := quantizeN 100 101 x
/-- `dequantize_unsigned_percent`, /repo/src/vpx/math/quantize.rs:33-37 -/
def dequantizePercent (i : UInt32) : F32 := dequantizeN 100 i

end Vpin
