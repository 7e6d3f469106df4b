import Verif.Model.Items.DragPoint
/-
Specification vocabulary for curves through drag points.
-/
namespace Vpin

/-- `P` holds for every two neighbours in the list -/
def EachChord (P : α → α → Prop) : List α → Prop
  | a :: b :: l => P a b ∧ EachChord P (b :: l)
  | _ => True

/-- The drag points around the `i`-th piece of a curve: the point before, the two ends, and the point
after. A closed curve goes on from the last point to the first one; at the ends of an open curve, and
next to a point that is not smooth, the end of the piece takes the place of its neighbour. -/
structure PieceOf (dps : List DragPoint) (closed : Bool) (i : Nat) (before p q after : DragPoint) :
    Prop where
  start : dps[i]? = some p
  stop : (if i + 1 < dps.length then dps[i + 1]? else dps[0]?) = some q
  before : if p.smooth && (closed || decide (0 < i)) then
      (if i = 0 then dps.getLast? else dps[i - 1]?) = some before else before = p
  after : if q.smooth && (closed || decide (i + 2 < dps.length)) then
      (if i + 2 < dps.length then dps[i + 2]? else dps[i + 2 - dps.length]?) = some after
    else after = q

/-- the number of pieces of a curve -/
def pieceCount (dps : List DragPoint) (closed : Bool) : Nat :=
  if closed then dps.length else dps.length - 1

end Vpin
