import Mathlib.Analysis.SpecialFunctions.Trigonometric.Basic
import Verif.Model.MeshNumbers
/-
Geometry with real numbers: what rings, distances from lines and normals are, independent of the generators.
-/
namespace Vpin.RealMesh

/-- the operations and constants of the mesh generators, for real numbers -/
@[instance_reducible] noncomputable def realNumbers : Numbers ℝ where
  zero := 0
  one := 1
  add := (· + ·)
  sub := (· - ·)
  mul := (· * ·)
  div := (· / ·)
  neg := (- ·)
  sin := Real.sin
  cos := Real.cos
  radians a := a * (Real.pi / 180)
  sqrt := Real.sqrt
  abs x := |x|
  isZero x := decide (x = 0)
  less x y := decide (x < y)
  ofNat n := n
  half := 1 / 2
  two := 2
  pi := Real.pi
  straight := 180
  full := 360
  small := 1 / 10 ^ 4
  tiny := 1 / 10 ^ 12

/-- inner product -/
def dot (a b : V3 ℝ) : ℝ := a.x * b.x + a.y * b.y + a.z * b.z

/-- difference -/
def minus (a b : V3 ℝ) : V3 ℝ := ⟨a.x - b.x, a.y - b.y, a.z - b.z⟩

/-- the triple product: positive if `a`, `b` and `c` are oriented like the axes -/
def triple (a b c : V3 ℝ) : ℝ :=
  a.x * (b.y * c.z - b.z * c.y) + a.y * (b.z * c.x - b.x * c.z) + a.z * (b.x * c.y - b.y * c.x)

/-- of length one -/
def UnitVector (a : V3 ℝ) : Prop := dot a a = 1

/-- `a` is the direction of `s` -/
def DirectionOf (a s : V3 ℝ) : Prop := UnitVector a ∧ ∃ k > 0, s = ⟨k * a.x, k * a.y, k * a.z⟩

/-- The points at these places around a middle are corners of a regular polygon with `S` corners in the circle of radius
`r` around the middle, in the plane perpendicular to `axis`: any two are seen from the middle under the angle that belongs
to them. -/
structure RegularRing (axis : V3 ℝ) (r : ℝ) (S : Nat) (place : Nat → V3 ℝ) : Prop where
  plane : ∀ j, dot (place j) axis = 0
  angles : ∀ j k, dot (place j) (place k) = r * r * Real.cos (2 * Real.pi * (j - k) / S)

/-- the distance of two points of the plane -/
noncomputable def dist2 (p q : Any.V2 ℝ) : ℝ := √((q.x - p.x) * (q.x - p.x) + (q.y - p.y) * (q.y - p.y))

/-- the distance of `s` from the line from `p` to `q`; negative on its other side -/
noncomputable def fromLine (p q s : Any.V2 ℝ) : ℝ :=
  ((q.x - p.x) * (s.y - p.y) - (q.y - p.y) * (s.x - p.x)) / dist2 p q

/-- the point of the line from `p` to `q` at the share `t` -/
def onLine (p q : Any.V2 ℝ) (t : ℝ) : Any.V2 ℝ := ⟨p.x + t * (q.x - p.x), p.y + t * (q.y - p.y)⟩

end Vpin.RealMesh
