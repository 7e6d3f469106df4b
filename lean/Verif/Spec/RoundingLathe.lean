import Verif.Spec.Rounding
/-
Where the points of the round parts of a plunger are, with real numbers.
-/
namespace Vpin
namespace Rounding

/-- point `j` of the 16 points of a circle around a line in the direction of y that is `axis` above the origin -/
noncomputable def wheelPoint (y axis radius : ℝ) (j : ℕ) : V3 ℝ :=
  ⟨-(radius * Real.sin (2 * Real.pi * (j / 16))), y, axis + radius * Real.cos (2 * Real.pi * (j / 16))⟩

/-- the 16 vertices of the mesh from number `first` on are the points of a circle, each at most `e` away in every
direction -/
def WheelAt (e : ℝ) (m : RawMesh) (first : ℕ) (y axis radius : ℝ) : Prop :=
  ∀ j, j < 16 → ∃ w, m.vertices[first + j]? = some w ∧ Within e w.pos (wheelPoint y axis radius j)

/-- the normals of the 16 vertices of the mesh from number `first` on are the directions from the axis to the points of a
circle, each at most `e` away in every direction -/
def WheelNormals (e : ℝ) (m : RawMesh) (first : ℕ) : Prop :=
  ∀ j, j < 16 → ∃ w, m.vertices[first + j]? = some w ∧ Within e w.normal (wheelPoint 0 0 1 j)

end Rounding
end Vpin
