import Verif.Model.Obj
/-
What is assumed of std's texts of floating point numbers, and which numbers survive them.
-/
namespace Vpin

/-- sign bit of an f64 for an f32 -/
def signBit (x : F32) : F64 := if x.isNeg then 0x8000000000000000 else 0

/-- What the documentation of std says: a printed number can be parsed; the text of a finite f32 is a decimal
fraction `n / d` that is nearer to it than to any other f32 (in the sense of rounding), and parsing a text as f64
is correctly rounded; infinities are kept; one half is printed as one half. -/
structure StdText (T : FloatText) : Prop where
  reads : ∀ x, ∃ v, T.parse64 (T.show32 x) = some v
  reads64 : ∀ x, ∃ v, T.parse64 (T.show64 x) = some v
  nan : ∃ v, T.parse64 "NaN".toList = some v
  finite : ∀ x : F32, x.isFinite = true → ∃ n d, 0 < d ∧ f32OfFrac n d = x.abs ∧
    T.parse64 (T.show32 x) = some (signBit x ||| f64OfFrac n d)
  inf : T.parse64 (T.show32 0x7f800000) = some 0x7ff0000000000000
  negInf : T.parse64 (T.show32 0xff800000) = some 0xfff0000000000000
  half : T.parse64 (T.show32 0x3f000000) = some 0x3fe0000000000000

/-- What the documentation of std says about printing with a given number of digits behind the point: the text is
a decimal fraction with that many digits, off by at most half a unit of the last digit, and parsing it is correctly
rounded. Numbers are counted in units of 2^-1074, the least positive f64. -/
structure PrecText (T : FloatText) : Prop where
  rounded : ∀ (p : Nat) (x : F64), x.isNaN = false → x.isInf = false → ∃ n : Nat,
    2 * (n * 2 ^ 1074) ≤ 2 * (x.mag * 10 ^ p) + 2 ^ 1074 ∧ 2 * (x.mag * 10 ^ p) ≤ 2 * (n * 2 ^ 1074) + 2 ^ 1074 ∧
    T.parse64 (T.showPrec p x) = some ((if x.isNeg then 0x8000000000000000 else 0) ||| f64OfFrac n (10 ^ p))

/-- The number survives its text, when that is read as an f64 and rounded to an f32. -/
def TextExact (T : FloatText) (x : F32) : Prop := ∃ v, T.parse64 (T.show32 x) = some v ∧ v.toF32 = x

/-- An f64 that lies exactly midway between two neighbouring f32 numbers (without their sign). -/
def Midway (v : F64) : Prop :=
  ∃ a b : F32, a.toNat < 0x7f800000 ∧ b.toNat = a.toNat + 1 ∧ 2 * v.mag = (a.mag + b.mag) * 2 ^ 925

/-- every number of a vertex that is printed as it is, survives -/
def Vertex.TextExact (T : FloatText) (v : Vertex) : Prop :=
  Vpin.TextExact T v.x ∧ Vpin.TextExact T v.y ∧ Vpin.TextExact T v.z.neg ∧ Vpin.TextExact T v.nx ∧
  Vpin.TextExact T v.ny ∧ Vpin.TextExact T v.nz.neg ∧ Vpin.TextExact T v.tu

/-- some number of the vertex is no number -/
def Vertex.HasNaN (v : Vertex) : Prop := [v.x, v.y, v.z, v.nx, v.ny, v.nz, v.tu, v.tv].any F32.isNaN = true

end Vpin

namespace Vpin

/-- the corners of a face, counted from 0, in the order they are used -/
def faceCorners (reverse : Bool) (face : List FaceCorner) : List Corner :=
  let cs := face.map fun c => (c.v - 1, c.vt - 1, c.vn - 1)
  if reverse then cs.reverse else cs

/-- the triangles of a polygon: the first corner with each pair of neighbours among the others -/
def fanTriangles (cs : List Corner) : List (Option Corner × Option Corner × Option Corner) :=
  (List.range (cs.length - 2)).map fun i => (cs[0]?, cs[i + 1]?, cs[i + 2]?)

/-- a face that can be used: at least three corners, all numbers between 1 and the number of points -/
def FaceOk (np nt nn : Nat) (face : List FaceCorner) : Prop :=
  3 ≤ face.length ∧ ∀ c ∈ face, (1 ≤ c.v ∧ c.v ≤ np) ∧ (1 ≤ c.vt ∧ c.vt ≤ nt) ∧ (1 ≤ c.vn ∧ c.vn ≤ nn)

end Vpin

namespace Vpin

/-- the positions of the `v` lines, in order (`none` for a line that is no number) -/
def objPositions (T : FloatText) (ls : List ObjLine) : List (Option (F32 × F32 × F32)) :=
  ls.filterMap fun
    | .v x y z => some (match T.parse64 x, T.parse64 y, T.parse64 z with
      | some x, some y, some z => some (x.toF32, y.toF32, z.toF32)
      | _, _, _ => none)
    | _ => none

/-- the coordinates of the `vt` lines, in order -/
def objTexcoords (T : FloatText) (ls : List ObjLine) : List (Option (F32 × F64)) :=
  ls.filterMap fun
    | .vt u v => some (match T.parse64 u, T.parse64 v with
      | some u, some v => some (u.toF32, v)
      | _, _ => none)
    | _ => none

/-- the directions of the `vn` lines, in order -/
def objNormals (T : FloatText) (ls : List ObjLine) : List (Option (F32 × F32 × F32)) :=
  ls.filterMap fun
    | .vn x y z => some (match T.parse64 x, T.parse64 y, T.parse64 z with
      | some x, some y, some z => some (x.toF32, y.toF32, z.toF32)
      | _, _, _ => none)
    | _ => none

/-- the polygons of the `f` lines, in order -/
def objPolygons (ls : List ObjLine) : List (List FaceCorner) :=
  ls.filterMap fun
    | .f corners => some (corners.map fun c => FaceCorner.mk c.1 (c.2.1.getD 0) (c.2.2.getD 0))
    | _ => none

/-- a triangle whose three corners name the same position, coordinate and direction -/
def PlainTriangle (face : List FaceCorner) : Prop := face.length = 3 ∧ ∀ c ∈ face, c.v = c.vt ∧ c.v = c.vn

end Vpin
