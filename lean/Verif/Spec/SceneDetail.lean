import Verif.Model.Common
import Verif.Model.GameData
/-!
# Vocabulary: the level of detail of a table
-/
namespace Vpin

/-- the level of detail a table asks for: its own if it says that it overrides the general one, otherwise
the highest, 10 -/
def AsksDetail (g : GameData) (n : UInt32) : Prop :=
  (g.overwrite_global_detail_level = some true ∧ g.user_detail_level = some n) ∨
  (g.overwrite_global_detail_level = some true ∧ g.user_detail_level = none ∧ n = 10) ∨
  (g.overwrite_global_detail_level ≠ some true ∧ n = 10)

end Vpin
