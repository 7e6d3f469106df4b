import Verif.Spec.Rounding
import Verif.Model.ItemMesh
/-
Where the points of a flipper are, with real numbers.
-/
namespace Vpin
namespace Rounding

/-- An arc tangent and an arc sine as a library computes them, as far as flippers need it: the angles are not larger than
half a turn and a right angle, with some room. -/
structure SaneAngles (A : ItemFns) : Prop where
  atan2 : ∀ y x : F32, y.isNaN = false → x.isNaN = false → AtMost 4 (A.atan2 y x)
  asin : ∀ x : F32, AtMost 1 x → AtMost 2 (A.asin x)

/-- a point of the bat that lies along the y axis, made higher, turned by the angle of the flipper and half a turn, and
moved up -/
noncomputable def batPlace (degrees height lift : ℝ) (p : V3 ℝ) : V3 ℝ :=
  Geometry.move ⟨0, 0, lift⟩ (Geometry.stretch ⟨1, 1, height⟩ (turnedBy (degrees + 180) p))

/-- a point of the circle around the point of the y axis that is `along` away from the origin -/
noncomputable def endPoint (radius along angle z : ℝ) : V3 ℝ :=
  ⟨radius * Real.cos angle, radius * Real.sin angle + along, z⟩

/-- Every vertex of a mesh is at most `e` away, in every direction, from a point of the circle of the base (around the
origin) or of the tip, at the height that the vertex of the table with the same number has. There are as many vertices. -/
def RoundEnds (e : ℝ) (mesh : RawMesh) (t : MeshTable) (base tip long : ℝ) (place : V3 ℝ → V3 ℝ) : Prop :=
  List.Forall₂ (fun w v => ∃ angle, Within e w.pos (place (endPoint base 0 angle (value v.z))) ∨
    Within e w.pos (place (endPoint tip long angle (value v.z)))) mesh.vertices t.vertices

end Rounding
end Vpin
