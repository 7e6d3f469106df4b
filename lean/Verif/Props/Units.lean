import Verif.Spec.Units
/-!
# C70: the unit of an exported scene
-/
namespace Vpin

/-- **C70**: scenes are scaled by the length of a unit of Visual Pinball in the wanted unit, to the precision of
the numbers. -/
theorem C70_units (u : ExportUnits) : IsNearly u.scale (unitLength u).1 (unitLength u).2 := by
  cases u <;> exact ⟨by decide +kernel, by decide +kernel, by decide +kernel⟩

/-- 50 units are a ball of 1.0625 inches, 26.9875 mm -/
example : 50 * (unitLength .mm).1 * 10000 = 269875 * (unitLength .mm).2 := by decide

/-- the number for millimetres is not right for centimetres -/
example : ¬ IsNearly (ExportUnits.scale .mm) (unitLength .cm).1 (unitLength .cm).2 :=
  fun h => absurd h.2.2 (by decide +kernel)

end Vpin
