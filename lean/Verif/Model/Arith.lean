import Verif.Model.FloatText
import Verif.Model.Quantize
import Verif.Model.Obj
/-
The `f32` operations used by the mesh generators.

The generators compute with `+ - * / sqrt sin cos powf`, comparisons and `min`/`max` on `f32`.
Here these are the fields of a class `Arith` on bit patterns, **without any laws**: a theorem about
a generator that is stated for every `[Arith]` holds for IEEE-754 arithmetic with any `sin`,
`cos` and `powf`. Statements that
need a law name it as a hypothesis. `ieee` is the concrete IEEE-754 instance (exact fraction,
then one rounding) used to run the models on examples.
-/
namespace Vpin

/-- the `f32` operations of the mesh generators, on bit patterns; no laws (used in /repo/src/vpx/mesh/mod.rs:99-156) -/
class Arith where
  add : F32 → F32 → F32
  sub : F32 → F32 → F32
  mul : F32 → F32 → F32
  div : F32 → F32 → F32
  /-- `f32::sqrt` -/
  sqrt : F32 → F32
  /-- `f32::sin` -/
  sin : F32 → F32
  /-- `f32::cos` -/
  cos : F32 → F32
  /-- `f32::powf` -/
  powf : F32 → F32 → F32
  /-- `f32::min` -/
  fmin : F32 → F32 → F32
  /-- `f32::max` -/
  fmax : F32 → F32 → F32
  /-- `a < b` -/
  lt : F32 → F32 → Bool
  /-- `a <= b` -/
  le : F32 → F32 → Bool
  /-- `a == b` -/
  eq : F32 → F32 → Bool
  /-- `n as f32` for an unsigned integer -/
  ofNat : Nat → F32

namespace Arith
scoped infixl:65 " +ᶠ " => Arith.add
scoped infixl:65 " -ᶠ " => Arith.sub
scoped infixl:70 " *ᶠ " => Arith.mul
scoped infixl:70 " /ᶠ " => Arith.div
scoped infix:50 " <ᶠ " => Arith.lt
scoped infix:50 " ≤ᶠ " => Arith.le
scoped infix:50 " ==ᶠ " => Arith.eq
end Arith

open Arith

/-! Literals of the generators as bit patterns; `Props/MeshExamples` checks them against
`f32OfFrac`. -/

/-- 0.5 (for instance in /repo/src/vpx/export/camera.rs:71) -/
def fHalf : F32 := 0x3f000000
/-- 2.0 (for instance in /repo/src/vpx/export/camera.rs:122) -/
def fTwo : F32 := 0x40000000
/-- 3.0 (for instance in /repo/src/vpx/export/gltf_export.rs:2633) -/
def fThree : F32 := 0x40400000
/-- 4.0 (for instance in /repo/src/vpx/mesh/mod.rs:62) -/
def fFour : F32 := 0x40800000
/-- 10.0 (for instance in /repo/src/vpx/export/gltf_export.rs:2748) -/
def fTen : F32 := 0x41200000
/-- 1.5 (for instance in /repo/src/vpx/export/obj_export.rs:1462) -/
def fOneHalf : F32 := 0x3fc00000
/-- 20.0 (for instance in /repo/src/vpx/mesh/ramps.rs:119) -/
def fTwenty : F32 := 0x41a00000
/-- 180.0 (for instance in /repo/src/vpx/math/vec.rs:183) -/
def f180 : F32 := 0x43340000
/-- 360.0 (for instance in /repo/src/vpx/mesh/ramps.rs:447) -/
def f360 : F32 := 0x43b40000
/-- 1e-4 (also written 0.0001) (for instance in /repo/src/vpx/mesh/mod.rs:225) -/
def f1em4 : F32 := 0x38d1b717
/-- 1e-6 (for instance in /repo/src/vpx/mesh/flashers.rs:151) -/
def f1em6 : F32 := 0x358637bd
/-- 1e-12 (for instance in /repo/src/vpx/mesh/mod.rs:939) -/
def f1em12 : F32 := 0x2b8cbccc
/-- 0.1 (for instance in /repo/src/vpx/export/gltf_export.rs:631) -/
def f0p1 : F32 := 0x3dcccccd
/-- 1.3 (for instance in /repo/src/vpx/mesh/mod.rs:39) -/
def f1p3 : F32 := 0x3fa66666
/-- 0.25 (for instance in /repo/src/vpx/export/gltf_export.rs:1738) -/
def fQuarter : F32 := 0x3e800000
/-- 0.75 (for instance in /repo/src/vpx/export/gltf_export.rs:1734) -/
def f3Quarter : F32 := 0x3f400000
/-- `f32::MAX` (for instance in /repo/src/vpx/export/gltf_export.rs:2608) -/
def fMax : F32 := 0x7f7fffff
/-- `f32::MIN` (for instance in /repo/src/vpx/mesh/flashers.rs:116) -/
def fMin : F32 := 0xff7fffff
/-- `f32::INFINITY` (for instance in /repo/src/vpx/export/camera.rs:77) -/
def fInf : F32 := 0x7f800000
/-- `f32::NEG_INFINITY` (for instance in /repo/src/vpx/export/camera.rs:77) -/
def fNegInf : F32 := 0xff800000
/-- `f32::consts::PI` (for instance in /repo/src/vpx/math/vec.rs:7) -/
def fPi : F32 := 0x40490fdb

/-- `x as u32`: truncation, saturating; 0 for NaN (used in /repo/src/vpx/mesh/mod.rs:39) -/
def f32AsU32 (x : F32) : Nat :=
  if x.isNaN || x.isNeg then 0
  else if x.isInf then 2 ^ 32 - 1
  else min (2 ^ 32 - 1) (x.mag / 2 ^ 149)

/-! ### Vectors -/

/-- `struct Vec2`, /repo/src/vpx/math/vec.rs:11-14 -/
structure Vec2 where
  x : F32
  y : F32
  deriving DecidableEq, Repr

/-- `struct Vec3`, /repo/src/vpx/math/vec.rs:72-76 -/
structure Vec3 where
  x : F32
  y : F32
  z : F32
  deriving DecidableEq, Repr

section
variable [Arith]

/-- `impl Add for Vec2`, /repo/src/vpx/math/vec.rs:22-30 -/
def Vec2.add (a b : Vec2) : Vec2 := ⟨a.x +ᶠ b.x, a.y +ᶠ b.y⟩
/-- `impl Sub for Vec2`, /repo/src/vpx/math/vec.rs:32-40 -/
def Vec2.sub (a b : Vec2) : Vec2 := ⟨a.x -ᶠ b.x, a.y -ᶠ b.y⟩
/-- `impl Mul<f32> for Vec2`, /repo/src/vpx/math/vec.rs:42-50 -/
def Vec2.scale (a : Vec2) (s : F32) : Vec2 := ⟨a.x *ᶠ s, a.y *ᶠ s⟩
/-- `Vec2::length`, /repo/src/vpx/math/vec.rs:53-55 -/
def Vec2.length (a : Vec2) : F32 := sqrt (a.x *ᶠ a.x +ᶠ a.y *ᶠ a.y)
/-- `Vec2::normalize`, /repo/src/vpx/math/vec.rs:57-67 -/
def Vec2.normalize (a : Vec2) : Vec2 :=
  let len := a.length
  if len ==ᶠ 0 then ⟨0, 0⟩ else ⟨a.x /ᶠ len, a.y /ᶠ len⟩

/-- `impl Sub for Vec3`, /repo/src/vpx/math/vec.rs:95-104 -/
def Vec3.sub (a b : Vec3) : Vec3 := ⟨a.x -ᶠ b.x, a.y -ᶠ b.y, a.z -ᶠ b.z⟩
/-- `impl Mul<f32> for Vec3`, /repo/src/vpx/math/vec.rs:106-115 -/
def Vec3.scale (a : Vec3) (s : F32) : Vec3 := ⟨a.x *ᶠ s, a.y *ᶠ s, a.z *ᶠ s⟩
/-- `Vec3::length`, /repo/src/vpx/math/vec.rs:118-120 -/
def Vec3.length (a : Vec3) : F32 := sqrt (a.x *ᶠ a.x +ᶠ a.y *ᶠ a.y +ᶠ a.z *ᶠ a.z)
/-- `Vec3::normalize`, /repo/src/vpx/math/vec.rs:122-137 -/
def Vec3.normalize (a : Vec3) : Vec3 :=
  let len := a.length
  if len ==ᶠ 0 then ⟨0, 0, 0⟩ else ⟨a.x /ᶠ len, a.y /ᶠ len, a.z /ᶠ len⟩
/-- `Vec3::cross`, /repo/src/vpx/math/vec.rs:139-145 -/
def Vec3.cross (a b : Vec3) : Vec3 :=
  ⟨a.y *ᶠ b.z -ᶠ a.z *ᶠ b.y, a.z *ᶠ b.x -ᶠ a.x *ᶠ b.z, a.x *ᶠ b.y -ᶠ a.y *ᶠ b.x⟩

/-- `get_rotated_axis`, /repo/src/vpx/math/vec.rs:181-209 -/
def getRotatedAxis (angleDegrees : F32) (axis temp : Vec3) : Vec3 :=
  let u := axis.normalize
  let angle := angleDegrees *ᶠ fPi /ᶠ f180
  let s := sin angle
  let c := cos angle
  let omc := f32One -ᶠ c
  let r0 : Vec3 := ⟨u.x *ᶠ u.x +ᶠ c *ᶠ (f32One -ᶠ u.x *ᶠ u.x),
    u.x *ᶠ u.y *ᶠ omc -ᶠ s *ᶠ u.z, u.x *ᶠ u.z *ᶠ omc +ᶠ s *ᶠ u.y⟩
  let r1 : Vec3 := ⟨u.x *ᶠ u.y *ᶠ omc +ᶠ s *ᶠ u.z,
    u.y *ᶠ u.y +ᶠ c *ᶠ (f32One -ᶠ u.y *ᶠ u.y), u.y *ᶠ u.z *ᶠ omc -ᶠ s *ᶠ u.x⟩
  let r2 : Vec3 := ⟨u.x *ᶠ u.z *ᶠ omc -ᶠ s *ᶠ u.y, u.y *ᶠ u.z *ᶠ omc +ᶠ s *ᶠ u.x,
    u.z *ᶠ u.z +ᶠ c *ᶠ (f32One -ᶠ u.z *ᶠ u.z)⟩
  ⟨temp.x *ᶠ r0.x +ᶠ temp.y *ᶠ r0.y +ᶠ temp.z *ᶠ r0.z,
   temp.x *ᶠ r1.x +ᶠ temp.y *ᶠ r1.y +ᶠ temp.z *ᶠ r1.z,
   temp.x *ᶠ r2.x +ᶠ temp.y *ᶠ r2.y +ᶠ temp.z *ᶠ r2.z⟩

end

/-! ### IEEE-754

The values of finite numbers as integers in units of 2^-149, operations on those exactly, then
rounding to nearest. Used to run the models on examples; no theorem about a generator depends on
this section. -/

/-- value of a finite number in units of 2^-149 (std, IEEE-754; no lines of /repo) -/
def F32.val (x : F32) : Int := if x.isNeg then -(x.mag : Int) else x.mag

/-- nearest `f32` to `n / d`, negative if `neg` (std, IEEE-754; no lines of /repo) -/
def f32Signed (neg : Bool) (n d : Nat) : F32 :=
  if neg then (f32OfFrac n d).neg else f32OfFrac n d

/-- quiet NaN (std, IEEE-754; no lines of /repo) -/
def fNaN : F32 := 0x7fc00000

/-- IEEE addition (used in /repo/src/vpx/mesh/mod.rs:99-156) -/
def ieeeAdd (a b : F32) : F32 :=
  if a.isNaN || b.isNaN then fNaN
  else if a.isInf then (if b.isInf && a.isNeg != b.isNeg then fNaN else a)
  else if b.isInf then b
  else
    let s := a.val + b.val
    if s = 0 then (if a.isNeg && b.isNeg then 0x80000000 else 0)
    else f32Signed (s < 0) s.natAbs (2 ^ 149)

/-- IEEE multiplication (used in /repo/src/vpx/math/vec.rs:139-145) -/
def ieeeMul (a b : F32) : F32 :=
  let neg := a.isNeg != b.isNeg
  if a.isNaN || b.isNaN then fNaN
  else if a.isInf || b.isInf then
    if a.mag = 0 || b.mag = 0 then fNaN else if neg then fNegInf else fInf
  else f32Signed neg (a.mag * b.mag) (2 ^ 298)

/-- IEEE division (used in /repo/src/vpx/math/vec.rs:57-67) -/
def ieeeDiv (a b : F32) : F32 :=
  let neg := a.isNeg != b.isNeg
  if a.isNaN || b.isNaN then fNaN
  else if a.isInf then (if b.isInf then fNaN else if neg then fNegInf else fInf)
  else if b.isInf then (if neg then 0x80000000 else 0)
  else if b.mag = 0 then (if a.mag = 0 then fNaN else if neg then fNegInf else fInf)
  else f32Signed neg a.mag b.mag

/-- integer square root by Newton's method, `fuel` steps (std, IEEE-754; no lines of /repo) -/
def isqrt (n : Nat) : Nat → Nat → Nat
  | 0, x => x
  | fuel + 1, x =>
    let y := (x + n / x) / 2
    if y < x then isqrt n fuel y else x

/-- IEEE square root: the exact root lies between two integers `r` and `r + 1` in units of
2^-200, far finer than any `f32` above the square root of the least number, so the sticky bit
`2 r + 1` rounds as the root itself does (used in /repo/src/vpx/math/vec.rs:53-55) -/
def ieeeSqrt (a : F32) : F32 :=
  if a.isNaN then fNaN
  else if a.mag = 0 then a
  else if a.isNeg then fNaN
  else if a.isInf then fInf
  else
    -- a = mag * 2^-149; scaled by 2^400: mag * 2^251
    let n := a.mag * 2 ^ 251
    let r := isqrt n 600 (2 ^ (Nat.log2 n / 2 + 1))
    if r * r = n then f32OfFrac r (2 ^ 200) else f32OfFrac (2 * r + 1) (2 ^ 201)

/-- `a < b`, false if one is NaN (used in /repo/src/vpx/mesh/walls.rs:529-574) -/
def ieeeLt (a b : F32) : Bool :=
  !a.isNaN && !b.isNaN &&
    (if a.isInf && b.isInf then a.isNeg && !b.isNeg
     else if a.isInf then a.isNeg
     else if b.isInf then !b.isNeg
     else decide (a.val < b.val))

/-- `a == b`, false if one is NaN; both zeros are equal (used in /repo/src/vpx/mesh/walls.rs:529-574) -/
def ieeeEq (a b : F32) : Bool :=
  !a.isNaN && !b.isNaN && (a == b || (a.isFinite && b.isFinite && decide (a.val = b.val)))

/-- IEEE-754 single precision arithmetic. `sin`, `cos` and `powf` are library functions without a
specification of their last bit; the parameters stand for them. (used in /repo/src/vpx/mesh/mod.rs:99-156) -/
@[instance_reducible] def ieee (sin cos : F32 → F32) (pow : F32 → F32 → F32) : Arith where
  add := ieeeAdd
  sub a b := ieeeAdd a b.neg
  mul := ieeeMul
  div := ieeeDiv
  sqrt := ieeeSqrt
  sin := sin
  cos := cos
  powf := pow
  fmin a b := if a.isNaN then b else if b.isNaN then a else if ieeeLt b a then b else a
  fmax a b := if a.isNaN then b else if b.isNaN then a else if ieeeLt a b then b else a
  lt := ieeeLt
  le a b := ieeeLt a b || ieeeEq a b
  eq := ieeeEq
  ofNat n := f32OfFrac n 1

/-- An `Arith` that runs the examples: `sin` and `cos` are exact only at multiples of a right
angle (0 otherwise), and `powf` is exact only for exponent 0. (used in /repo/src/vpx/mesh/mod.rs:99-156) -/
@[instance_reducible] def ieeeExact : Arith :=
  ieee (fun x => if x = 0x3fc90fdb then f32One else if x = 0x4096cbe4 then f32One.neg else 0)
    (fun x => if x = 0 then f32One else if x = fPi then f32One.neg else 0)
    (fun _ y => if ieeeEq y 0 then f32One else 0)

end Vpin
