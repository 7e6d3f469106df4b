import Mathlib.Data.Real.Basic
import Verif.Model.Outline
/-
Outlines in the plane with real numbers: areas, points inside of triangles, how often an outline goes around a point.
Independent of the code.
-/
namespace Vpin.RealOutline

/-- the operations of the triangulations, for real numbers -/
@[instance_reducible] noncomputable def realOutline : Any.Outline ℝ where
  zero := 0
  add := (· + ·)
  sub := (· - ·)
  mul := (· * ·)
  lt x y := decide (x < y)
  le x y := decide (x ≤ y)
  eq x y := decide (x = y)
  min := min
  max := max
  huge := 2 ^ 128 - 2 ^ 104

abbrev Point := ℝ × ℝ

/-- twice the area of the triangle `a b c`, positive if it is counter-clockwise -/
def turn (a b c : Point) : ℝ := (b.1 - a.1) * (c.2 - a.2) - (b.2 - a.2) * (c.1 - a.1)

/-- the steps of a closed walk through the points -/
def sidesOf (l : List Point) : List (Point × Point) := l.zip (l.tail ++ l.take 1)

/-- twice the area of an outline, positive if it is counter-clockwise -/
def area (l : List Point) : ℝ := ((sidesOf l).map fun e => e.1.1 * e.2.2 - e.2.1 * e.1.2).sum

/-- a step upwards to the right of the point `q`, 1, or downwards, -1 -/
noncomputable def passes (q : Point) (e : Point × Point) : Int :=
  if e.1.2 ≤ q.2 ∧ q.2 < e.2.2 ∧ 0 < turn e.1 e.2 q then 1
  else if e.2.2 ≤ q.2 ∧ q.2 < e.1.2 ∧ turn e.1 e.2 q < 0 then -1
  else 0

/-- **Specification**: how often an outline goes around a point, counter-clockwise -/
noncomputable def winding (l : List Point) (q : Point) : Int := ((sidesOf l).map (passes q)).sum

/-- the corners of a triangle -/
def cornersOf (p : Nat → Point) (t : Tri) : Point × Point × Point := (p t.1, p t.2.1, p t.2.2)

/-- the point is inside of the triangle, whose corners are counter-clockwise -/
def InTriangle (p : Nat → Point) (q : Point) (t : Tri) : Prop :=
  0 < turn (p t.1) (p t.2.1) q ∧ 0 < turn (p t.2.1) (p t.2.2) q ∧ 0 < turn (p t.2.2) (p t.1) q

/-- the point is on no line through two corners of the outline -/
def OffLines (l : List Point) (q : Point) : Prop := ∀ a ∈ l, ∀ b ∈ l, a ≠ b → turn a b q ≠ 0

/-- point `i` of an outline -/
def pointOf (l : List Point) (i : Nat) : Point := l.getD i (0, 0)

/-- **Specification**: the triangles `ts` of the outline `l` cover what is between it and the outline `rest` left over:
their corners are corners of the outline and counter-clockwise, each point off the lines is in as many triangles as
the outline goes around it more often than the rest, and the areas add up -/
structure Covers (l rest : List Point) (ts : List Tri) : Prop where
  corners : ∀ t ∈ ts, t.1 < l.length ∧ t.2.1 < l.length ∧ t.2.2 < l.length
  left : ∀ t ∈ ts, 0 ≤ turn (pointOf l t.1) (pointOf l t.2.1) (pointOf l t.2.2)
  count : ∀ q, OffLines l q → ∀ [DecidablePred (InTriangle (pointOf l) q)],
    ((ts.filter fun t => InTriangle (pointOf l) q t).length : Int) = |winding l q - winding rest q|
  areas : (ts.map fun t => turn (pointOf l t.1) (pointOf l t.2.1) (pointOf l t.2.2)).sum = |area l - area rest|

/-- **Specification**: three points in the order of the outline are always counter-clockwise -/
def ConvexLeft (l : List Point) : Prop := ∀ a b c, [a, b, c].Sublist l → 0 < turn a b c

/-- **Specification**: an outline that is strictly convex, in either direction -/
def StrictlyConvex (l : List Point) : Prop := ConvexLeft l ∨ ConvexLeft l.reverse

end Vpin.RealOutline
