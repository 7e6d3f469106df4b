import Verif.Model.Mesh
/-!
# Vocabulary: a rectangle with the picture of the playfield
-/
namespace Vpin

/-- corner `k` of the unit square: from left to right, the upper ones first -/
def squareCorner (k : Int) : Int × Int := (k % 2, k / 2)

/-- on which side of the line from corner `a` to corner `b` the point `(p / n, q / n)` lies -/
def sideOf (a b : Int) (n p q : Int) : Int :=
  ((squareCorner b).1 - (squareCorner a).1) * (q - (squareCorner a).2 * n) -
  ((squareCorner b).2 - (squareCorner a).2) * (p - (squareCorner a).1 * n)

/-- the point `(p / n, q / n)` of the unit square is in the triangle, or on its edge -/
def InTriangle (f : Face) (n p q : Int) : Prop :=
  0 ≤ sideOf f.i0 f.i1 n p q ∧ 0 ≤ sideOf f.i1 f.i2 n p q ∧ 0 ≤ sideOf f.i2 f.i0 n p q

/-- the same but not on its edge -/
def InsideTriangle (f : Face) (n p q : Int) : Prop :=
  0 < sideOf f.i0 f.i1 n p q ∧ 0 < sideOf f.i1 f.i2 n p q ∧ 0 < sideOf f.i2 f.i0 n p q

/-- a rectangle at height 0, seen from above, with a picture whose upper left corner is at `left`, `top`; its
triangles leave no hole and do not overlap -/
structure IsPlayfieldShape (left top right bottom : F32) (vs : List Vertex) (fs : List Face) : Prop where
  places : vs.map (fun v => (v.x, v.y, v.z)) = [(left, top, 0), (right, top, 0), (left, bottom, 0), (right, bottom, 0)]
  up : ∀ v ∈ vs, (v.nx, v.ny, v.nz) = (0, 0, 0x3f800000)
  picture : vs.map (fun v => (v.tu, v.tv)) = [(0, 0), (0x3f800000, 0), (0, 0x3f800000), (0x3f800000, 0x3f800000)]
  covers : ∀ n p q : Int, 0 < n → 0 ≤ p → p ≤ n → 0 ≤ q → q ≤ n → ∃ f ∈ fs, InTriangle f n p q
  once : fs.Pairwise fun f g => ∀ n p q : Int, 0 < n → ¬ (InsideTriangle f n p q ∧ InsideTriangle g n p q)

end Vpin
