import Verif.Model.Arith
import Verif.Model.Items.Light
/-!
# Vocabulary: how far and how bright a light is
-/
namespace Vpin
open Arith
variable [Arith]

/-- the square of the distance of a point of the outline of a light from the centre of the light -/
def distanceSquared (l : Light) (p : DragPoint) : F32 :=
  (p.x -ᶠ l.center.x) *ᶠ (p.x -ᶠ l.center.x) +ᶠ (p.y -ᶠ l.center.y) *ᶠ (p.y -ᶠ l.center.y)

/-- `y` is `x` limited to `lo` to `hi` -/
def LimitedTo (lo hi x y : F32) : Prop :=
  (x <ᶠ lo → y = lo) ∧ (¬ x <ᶠ lo → hi <ᶠ x → y = hi) ∧ (¬ x <ᶠ lo → ¬ hi <ᶠ x → y = x)

end Vpin
