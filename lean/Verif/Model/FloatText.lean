import Verif.Model.Float
/-
The parts of IEEE-754 double precision and of std's text forms of floating point numbers that
/repo/src/vpx/obj.rs uses.
-/
namespace Vpin

/-- `-x` (std): flips the sign bit (used in /repo/src/vpx/obj.rs:100-185) -/
def F32.neg (x : F32) : F32 := x ^^^ 0x80000000

/-- `isNaN` (std, IEEE-754; no lines of /repo) -/
def F64.isNaN (x : F64) : Bool := x.toNat % 0x8000000000000000 > 0x7ff0000000000000
/-- `isInf` (std, IEEE-754; no lines of /repo) -/
def F64.isInf (x : F64) : Bool := x.toNat % 0x8000000000000000 == 0x7ff0000000000000
/-- `isNeg` (std, IEEE-754; no lines of /repo) -/
def F64.isNeg (x : F64) : Bool := x.toNat ≥ 0x8000000000000000

/-- `f64::from(x)` for an f32 (std): exact; a NaN stays some NaN (used in /repo/src/vpx/obj.rs:235-271) -/
def F32.toF64 (x : F32) : F64 :=
  let s : F64 := if x.isNeg then 0x8000000000000000 else 0
  if x.isNaN then 0x7ff8000000000000
  else if x.isInf then s ||| 0x7ff0000000000000
  else s ||| f64OfFrac x.mag (2 ^ 149)

/-- `x as f32` for an f64 (std): nearest, ties to even; a NaN stays some NaN (used in /repo/src/vpx/obj.rs:624-628) -/
def F64.toF32 (x : F64) : F32 :=
  let s : F32 := if x.isNeg then 0x80000000 else 0
  if x.isNaN then 0x7fc00000
  else if x.isInf then s ||| 0x7f800000
  else s ||| f32OfFrac x.mag (2 ^ 1074)

/-- `1.0 - x` for an f64 (std): the exact difference, rounded once (used in /repo/src/vpx/obj.rs:235-271) -/
def F64.oneMinus (x : F64) : F64 :=
  if x.isNaN then 0x7ff8000000000000
  else if x.isInf then if x.isNeg then 0x7ff0000000000000 else 0xfff0000000000000
  else if x.isNeg then f64OfFrac (2 ^ 1074 + x.mag) (2 ^ 1074)
  else if x.mag ≤ 2 ^ 1074 then f64OfFrac (2 ^ 1074 - x.mag) (2 ^ 1074)
  else 0x8000000000000000 ||| f64OfFrac (x.mag - 2 ^ 1074) (2 ^ 1074)

/-- std's printing and parsing of floating point numbers: `format!("{x}")` of an f32 and of an f64,
`format!("{x:.p$}")` of an f64 and `str::parse::<f64>`. Nothing is assumed here. (used in /repo/src/vpx/obj.rs:235-271) -/
structure FloatText where
  show32 : F32 → Str
  show64 : F64 → Str
  showPrec : Nat → F64 → Str
  parse64 : Str → Option F64

end Vpin
