import Verif.Model.Bytes
/-
The IEEE-754 arithmetic the code uses, on bit patterns.

Rust's `f32`/`f64` operations are IEEE-754 operations rounding to nearest, ties to even. The
few operations the modelled functions need are defined here on exact fractions followed by one
rounding step (trusted: the hardware follows IEEE-754).
-/
namespace Vpin

/-- nearest integer to `n / d`, ties to even (std, IEEE-754; no lines of /repo) -/
def roundDiv (n d : Nat) : Nat :=
  if 2 * (n % d) < d then n / d
  else if d < 2 * (n % d) then n / d + 1
  else n / d + n / d % 2

/-- Bit pattern (sign bit 0) of the nearest binary float to the fraction `n / d`, for a format
with `p` bits of precision, least positive value `2 ^ (-q)`, and infinity at `inf`.
The exponent `e` counts units of the last place from the least positive value: it is the
largest one for which the significand has at most `p` bits, and 0 in the subnormal range. The
bit pattern of significand `m` with exponent `e` is `e * 2 ^ (p - 1) + m`, both for subnormal
and for normal numbers, and also when rounding carries over to `m = 2 ^ p`. (std, IEEE-754; no lines of /repo) -/
def roundBits (p q inf : Nat) (n d : Nat) : Nat :=
  let a := n * 2 ^ q            -- value in units of the least positive number: a / d
  let l := Nat.log2 (a / d)     -- floor(log2(a / d)), 0 if below 1
  let e := l + 1 - p            -- natural subtraction: 0 in the subnormal range
  min inf (e * 2 ^ (p - 1) + roundDiv a (d * 2 ^ e))

/-- f32: 24 bits of precision, least positive number 2^-149 (std, IEEE-754; no lines of /repo) -/
def f32OfFrac (n d : Nat) : F32 := UInt32.ofNat (roundBits 24 149 0x7f800000 n d)
/-- f64: 53 bits of precision, least positive number 2^-1074 (std, IEEE-754; no lines of /repo) -/
def f64OfFrac (n d : Nat) : F64 := UInt64.ofNat (roundBits 53 1074 0x7ff0000000000000 n d)

/-- `isNaN` (std, IEEE-754; no lines of /repo) -/
def F32.isNaN (x : F32) : Bool := x.toNat % 0x80000000 > 0x7f800000
/-- `isInf` (std, IEEE-754; no lines of /repo) -/
def F32.isInf (x : F32) : Bool := x.toNat % 0x80000000 == 0x7f800000
/-- `isFinite` (std, IEEE-754; no lines of /repo) -/
def F32.isFinite (x : F32) : Bool := x.toNat % 0x80000000 < 0x7f800000
/-- `isNeg` (std, IEEE-754; no lines of /repo) -/
def F32.isNeg (x : F32) : Bool := x.toNat ≥ 0x80000000

/-- Magnitude of a finite number in units of the least positive one (times 2^-149). (std, IEEE-754; no lines of /repo) -/
def F32.mag (x : F32) : Nat :=
  let b := x.toNat % 0x80000000
  let e := b / 0x800000
  let m := b % 0x800000
  if e = 0 then m else (0x800000 + m) * 2 ^ (e - 1)

/-- the same for `f64` (std, IEEE-754; no lines of /repo) -/
def F64.mag (x : F64) : Nat :=
  let b := x.toNat % 0x8000000000000000
  let e := b / 0x10000000000000
  let m := b % 0x10000000000000
  if e = 0 then m else (0x10000000000000 + m) * 2 ^ (e - 1)

/-- the number without its sign (std, IEEE-754; no lines of /repo) -/
def F32.abs (x : F32) : F32 := UInt32.ofNat (x.toNat % 0x80000000)

/-- 1.0 (std, IEEE-754; no lines of /repo) -/
def f32One : F32 := 0x3f800000

/-- `x >= 0.0`: false for NaN, true for both zeros (std, IEEE-754; no lines of /repo) -/
def F32.ge0 (x : F32) : Bool := !x.isNaN && (!x.isNeg || x.mag == 0)

end Vpin
