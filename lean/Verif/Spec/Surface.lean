/-
Specification vocabulary for triangle meshes: which edges a list of triangles has, and what it
means that they fit together. Independent of the model.
-/
namespace Vpin

/-- a triangle as three vertex numbers; its orientation is the order of the corners -/
abbrev Tri := Nat × Nat × Nat

/-- the three directed edges of a triangle -/
def Tri.edges (t : Tri) : List (Nat × Nat) := [(t.1, t.2.1), (t.2.1, t.2.2), (t.2.2, t.1)]

/-- all directed edges of a list of triangles -/
def triEdges (ts : List Tri) : List (Nat × Nat) := ts.flatMap Tri.edges

/-- the directed edges of a closed polygon with the given corners -/
def loopEdges (l : List Nat) : List (Nat × Nat) := l.zip (l.tail ++ l.take 1)

/-- every directed edge occurs as often as its reverse: nothing is left open -/
def Balanced (es : List (Nat × Nat)) : Prop := ∀ u v, es.count (u, v) = es.count (v, u)

/-- all corners of the triangles are numbers below `n` -/
def InRange (n : Nat) (ts : List Tri) : Prop := ∀ t ∈ ts, t.1 < n ∧ t.2.1 < n ∧ t.2.2 < n

/-- the corners of a triangle are three different vertices -/
def Tri.Proper (t : Tri) : Prop := t.1 ≠ t.2.1 ∧ t.2.1 ≠ t.2.2 ∧ t.2.2 ≠ t.1

/-- A closed oriented surface: no directed edge is used twice and every directed edge is matched
by its reverse, so each edge belongs to exactly two triangles that run through it in opposite
directions. -/
def ClosedSurface (ts : List Tri) : Prop := (triEdges ts).Nodup ∧ Balanced (triEdges ts)

/-- An oriented surface whose rim is the closed polygon `rim`: no directed edge is used twice, and
adding the polygon, walked the other way round, leaves nothing open. -/
def SurfaceWithRim (ts : List Tri) (rim : List Nat) : Prop :=
  (triEdges ts).Nodup ∧ Balanced (triEdges ts ++ loopEdges rim.reverse)

/-- twice the signed area of a triangle with integer corner points -/
def triArea2 (p : Nat → Int × Int) (t : Tri) : Int :=
  ((p t.2.1).1 - (p t.1).1) * ((p t.2.2).2 - (p t.1).2) -
    ((p t.2.2).1 - (p t.1).1) * ((p t.2.1).2 - (p t.1).2)

/-- twice the signed area of a polygon with integer corner points (shoelace formula) -/
def loopArea2 (p : Nat → Int × Int) (l : List Nat) : Int :=
  ((loopEdges l).map fun e => (p e.1).1 * (p e.2).2 - (p e.2).1 * (p e.1).2).sum

/-- on which side of the line from `o` to `a` the point `b` lies (sign of the cross product) -/
def side (o a b : Int × Int) : Int := (a.1 - o.1) * (b.2 - o.2) - (a.2 - o.2) * (b.1 - o.1)

/-- `p` lies on the segment from `a` to `b` -/
def OnSegment (p a b : Int × Int) : Prop :=
  side a b p = 0 ∧ min a.1 b.1 ≤ p.1 ∧ p.1 ≤ max a.1 b.1 ∧ min a.2 b.2 ≤ p.2 ∧ p.2 ≤ max a.2 b.2

instance : Decidable (OnSegment p a b) := by unfold OnSegment; infer_instance

/-- two segments have a point in common -/
def SegmentsMeet (a b c d : Int × Int) : Prop :=
  OnSegment a c d ∨ OnSegment b c d ∨ OnSegment c a b ∨ OnSegment d a b ∨
    (side a b c * side a b d < 0 ∧ side c d a * side c d b < 0)

instance : Decidable (SegmentsMeet a b c d) := by unfold SegmentsMeet; infer_instance

/-- A simple polygon: no corner lies on the line through its neighbours, and two edges that are not
neighbours have no point in common. -/
def SimplePolygon (pts : List (Int × Int)) : Prop :=
  let n := pts.length
  let p := fun i => pts.getD (i % n) (0, 0)
  3 ≤ n ∧ (∀ i < n, side (p i) (p (i + 1)) (p (i + 2)) ≠ 0) ∧
    ∀ i < n, ∀ j < n, i ≠ j ∧ (i + 1) % n ≠ j ∧ (j + 1) % n ≠ i →
      ¬ SegmentsMeet (p i) (p (i + 1)) (p j) (p (j + 1))

instance : Decidable (SimplePolygon pts) := by unfold SimplePolygon; dsimp only; infer_instance

end Vpin
