import Mathlib.Analysis.SpecialFunctions.Trigonometric.Basic
import Verif.Props.ItemShapes
/-
C73 and C82 with real numbers: the sine, the cosine and the change from degrees to radians of the real numbers meet the
conditions of the theorems about exact numbers.
-/
namespace Vpin
open Geometry

/-- the operations of the code on real numbers -/
@[instance_reducible] noncomputable def realOps : Ops ℝ := exactOps Real.sin Real.cos fun a => a * (Real.pi / 180)

theorem real_unit (a : ℝ) : Real.cos a * Real.cos a + Real.sin a * Real.sin a = 1 := by
  rw [← sq, ← sq]
  exact Real.cos_sq_add_sin_sq a

/-- **C73**, with real numbers: a primitive with the same size in all directions keeps its shape. -/
theorem C73_shape_real (pos : V3 ℝ) (k t0 t1 t2 t3 t4 t5 t6 t7 t8 : ℝ) (p q n : V3 ℝ) :
    letI := realOps
    let m := primitiveWorldMatrix pos ⟨k, k, k⟩ t0 t1 t2 t3 t4 t5 t6 t7 t8
    let d := Geometry.sub (m.transformVertex p) (m.transformVertex q)
    dot d d = k * k * dot (Geometry.sub p q) (Geometry.sub p q) ∧
      dot d (m.transformNormal n) = k * k * dot (Geometry.sub p q) n :=
  C73_shape real_unit pos k t0 t1 t2 t3 t4 t5 t6 t7 t8 p q n

/-- **C82**, with real numbers: spinners, the brackets and wires of gates, the bodies of kickers, balls and bulbs are
similar to their tables, for all angles and sizes. -/
theorem C82_similar_real (angle length up : ℝ) :
    letI := realOps
    Similar (spinnerPoint angle length) length ∧ Similar (gateBracketPoint angle length) length ∧
      Similar (gateWirePoint angle) 1 ∧ Similar (kickerPoint angle up length) length ∧
      Similar (scaledPoint length) length :=
  C82_similar angle length up (real_unit _)

/-- **C82**, with real numbers: and their normals keep their lengths and stay at right angles to the surface. -/
theorem C82_right_angles_real (angle length up : ℝ) :
    letI := realOps
    Turning (turnedNormal angle) ∧ Turning (rowTurnedNormal angle) ∧
      KeepsRightAngles (spinnerPoint angle length) (turnedNormal angle) ∧
      KeepsRightAngles (gateBracketPoint angle length) (rowTurnedNormal angle) ∧
      KeepsRightAngles (gateWirePoint angle) (rowTurnedNormal angle) ∧
      KeepsRightAngles (kickerPoint angle up length) (rowTurnedNormal angle) ∧
      KeepsRightAngles (scaledPoint length) id :=
  C82_right_angles angle length up (real_unit _)

/-- **C82**, with real numbers: a decal turned by a right angle (90 degrees) has its width along y: its upper left corner
is at half its height to the right and half its width up. -/
theorem C82_decal_real (w h : ℝ) :
    letI := realOps
    decalCorner (Real.sin (90 * (Real.pi / 180))) (Real.cos (90 * (Real.pi / 180))) w h true true = (h, -w) := by
  have e : (90 : ℝ) * (Real.pi / 180) = Real.pi / 2 := by ring
  rw [e, Real.sin_pi_div_two, Real.cos_pi_div_two]
  simp only [decalCorner, exact_add, exact_sub, exact_mul, exact_neg, exact_zero, if_true, Prod.mk.injEq]
  constructor <;> ring

/-- a spinner of length 2, turned by 90 degrees: a point on its x axis is on the y axis, twice as far away -/
example : letI := realOps
    spinnerPoint 90 2 (⟨3, 0, 1⟩ : V3 ℝ) = ⟨0, 6, 2⟩ := by
  rw [(C82_points (sin := Real.sin) (cos := Real.cos) (radians := fun a => a * (Real.pi / 180)) 90 2 0 ⟨0, 0, 0⟩ ⟨3, 0, 1⟩
    ⟨⟨0, 0, 0, 0⟩, ⟨0, 0, 0, 0⟩, ⟨0, 0, 0, 0⟩, ⟨0, 0, 0, 0⟩⟩).1]
  have e : (90 : ℝ) * (Real.pi / 180) = Real.pi / 2 := by ring
  simp only [e, Real.sin_pi_div_two, Real.cos_pi_div_two, turnZ, stretch, V3.mk.injEq]
  norm_num

end Vpin
