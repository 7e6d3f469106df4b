import Verif.Model.Curve
import Verif.Model.Arith
/-
Words for flat meshes drawn by an outline.
-/
namespace Vpin.Scene

open Vpin

/-- the least x and y and the greatest x and y -/
structure Box where
  left : F32
  top : F32
  right : F32
  bottom : F32

/-- `m` is the least of the numbers, in IEEE's order -/
def IsLeastOf (m : F32) (l : List F32) : Prop := m ∈ l ∧ ∀ x ∈ l, ieeeLt x m = false

/-- `m` is the greatest of the numbers, in IEEE's order -/
def IsGreatestOf (m : F32) (l : List F32) : Prop := m ∈ l ∧ ∀ x ∈ l, ieeeLt m x = false

/-- the smallest box around the points -/
def Box.Bounds (b : Box) (vs : List RenderVertex2D) : Prop :=
  IsLeastOf b.left (vs.map (·.x)) ∧ IsLeastOf b.top (vs.map (·.y)) ∧ IsGreatestOf b.right (vs.map (·.x)) ∧
    IsGreatestOf b.bottom (vs.map (·.y))

/-- numbers between the least and the greatest finite number, and not these -/
def Moderate (x : F32) : Prop := ieeeLt 0xff7fffff x = true ∧ ieeeLt x 0x7f7fffff = true

end Vpin.Scene
