import Verif.Model.ObjExport
/-!
# Vocabulary: units of exported scenes
-/
namespace Vpin

/-- the length of one unit of Visual Pinball as a fraction: 50 of them are 1.0625 inches (a ball) of 25.4 mm, so
one is 0.53975 mm -/
def unitLength : ExportUnits → Nat × Nat
  | .vpu => (1, 1)
  | .mm => (53975, 100000)
  | .cm => (53975, 1000000)
  | .m => (53975, 100000000)

/-- a positive number is a fraction up to a part in `2^24`, the precision of `f32` -/
def IsNearly (x : F32) (n d : Nat) : Prop :=
  x.isNeg = false ∧ x.isFinite = true ∧
  ((x.mag * d : Nat) - (n * 2 ^ 149 : Nat) : Int).natAbs * 2 ^ 24 ≤ n * 2 ^ 149

end Vpin
