import Verif.Model.Curve
/-
What a Catmull-Rom spline is: the pyramid of Barry and Goldman, with exact numbers.
-/
namespace Vpin.Geometry

open Lean.Grind

variable {α : Type} [Field α]

/-- the operations of the splines on exact numbers -/
@[instance_reducible] def exactSpline : SplineOps α where
  add := (· + ·)
  sub := (· - ·)
  mul := (· * ·)
  div := (· / ·)
  neg := (- ·)
  one := 1
  two := 2
  three := 3

/-- the straight line that is `a` at `s` and `b` at `t`, at `u` -/
def line (s t a b u : α) : α := (t - u) / (t - s) * a + (u - s) / (t - s) * b

/-- the curve through `p0` … `p3` at the times `k0` … `k3`, at the time `u` between `k1` and `k2` -/
def pyramid (k0 k1 k2 k3 p0 p1 p2 p3 u : α) : α :=
  let a1 := line k0 k1 p0 p1 u
  let a2 := line k1 k2 p1 p2 u
  let a3 := line k2 k3 p2 p3 u
  line k1 k2 (line k0 k2 a1 a2 u) (line k1 k3 a2 a3 u) u

end Vpin.Geometry
