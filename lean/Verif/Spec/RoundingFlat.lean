import Verif.Spec.Rounding
import Verif.Model.FlatMesh
/-
Where the points of flat meshes are, with real numbers.
-/
namespace Vpin
namespace Rounding

/-- a point turned about the y axis, from z to x, by an angle in degrees -/
noncomputable def rolledBy (degrees : ℝ) (p : V3 ℝ) : V3 ℝ :=
  Geometry.turnY (Real.cos (degrees * (Real.pi / 180))) (Real.sin (degrees * (Real.pi / 180))) p

/-- how a flasher is turned: about the x axis, the y axis and then the z axis, by three angles in degrees -/
noncomputable def flasherTurn (x y z : ℝ) (p : V3 ℝ) : V3 ℝ := turnedBy z (rolledBy y (tiltedBy x p))

/-- `m` is in the middle between the least and the greatest of the numbers of a set -/
def MiddleOf (m : ℝ) (s : Set ℝ) : Prop := ∃ a b, IsLeast s a ∧ IsGreatest s b ∧ m = (a + b) / 2

/-- the x coordinates of the points of an outline -/
def acrossOf (vs : List RenderVertex2D) : Set ℝ := {r | ∃ v ∈ vs, r = value v.x}

/-- the y coordinates of the points of an outline -/
def alongOf (vs : List RenderVertex2D) : Set ℝ := {r | ∃ v ∈ vs, r = value v.y}

end Rounding
end Vpin
