import Verif.Model.Polygon
/-
The two triangulations of outlines (Model/Polygon.lean), for any numbers: the same sequence of operations as the code. With
the numbers of the code they are the models of the code (`C95_same`), with real numbers they show what the code does apart
from rounding.
-/
namespace Vpin.Any

/-- the operations of the triangulations; `huge` is `f32::MAX` (used in /repo/src/vpx/mesh/walls.rs:529-574) -/
class Outline (α : Type) where
  zero : α
  add : α → α → α
  sub : α → α → α
  mul : α → α → α
  lt : α → α → Bool
  le : α → α → Bool
  eq : α → α → Bool
  min : α → α → α
  max : α → α → α
  huge : α

/-- the operations of the code (used in /repo/src/vpx/mesh/walls.rs:529-574) -/
instance [Arith] : Outline F32 where
  zero := 0
  add := Arith.add
  sub := Arith.sub
  mul := Arith.mul
  lt := Arith.lt
  le := Arith.le
  eq := Arith.eq
  min := Arith.fmin
  max := Arith.fmax
  huge := fMax

section
variable {α : Type} [Outline α]
open Outline

local infixl:65 " +' " => Outline.add
local infixl:65 " -' " => Outline.sub
local infixl:70 " *' " => Outline.mul
local infix:50 " <' " => Outline.lt
local infix:50 " ≤' " => Outline.le
local infix:50 " ==' " => Outline.eq

/-- `lines_intersect`, /repo/src/vpx/mesh/walls.rs:650-681 and /repo/src/vpx/mesh/mod.rs:745-785 -/
def linesIntersect (s1 s2 e1 e2 : α × α) : Bool :=
  let (x1, y1) := s1
  let (x2, y2) := s2
  let (x3, y3) := e1
  let (x4, y4) := e2
  let d123 := (x2 -' x1) *' (y3 -' y1) -' (x3 -' x1) *' (y2 -' y1)
  if d123 ==' zero then min x1 x2 ≤' x3 && x3 ≤' max x2 x1
  else
    let d124 := (x2 -' x1) *' (y4 -' y1) -' (x4 -' x1) *' (y2 -' y1)
    if d124 ==' zero then min x1 x2 ≤' x4 && x4 ≤' max x2 x1
    else if zero ≤' d123 *' d124 then false
    else
      let d341 := (x3 -' x1) *' (y4 -' y1) -' (x4 -' x1) *' (y3 -' y1)
      if d341 ==' zero then min x3 x4 ≤' x1 && x1 ≤' max x3 x4
      else
        let d342 := d123 -' d124 +' d341
        if d342 ==' zero then min x3 x4 ≤' x2 && x2 ≤' max x3 x4
        else d341 *' d342 <' zero

/-- `dot_2d`, /repo/src/vpx/mesh/walls.rs:632-634, and `get_dot`, /repo/src/vpx/mesh/mod.rs:739-741 -/
def dot2d (end1 joint end2 : α × α) : α :=
  (joint.1 -' end1.1) *' (joint.2 -' end2.2) -' (joint.2 -' end1.2) *' (joint.1 -' end2.1)

/-- the angle tests of `advance_point`, /repo/src/vpx/mesh/walls.rs:592-597 and /repo/src/vpx/mesh/mod.rs:804-813 -/
def badAngle (pv1 pv2 pv3 pvPre pvPost : α × α) : Bool :=
  dot2d pv1 pv2 pv3 <' zero
    || (zero <' dot2d pvPre pv1 pv2 && dot2d pvPre pv1 pv3 <' zero)
    || (zero <' dot2d pv2 pv3 pvPost && dot2d pv1 pv3 pvPost <' zero)

/-- equality of a pair of coordinates (used in /repo/src/vpx/mesh/walls.rs:577-628) -/
def pairEq (a b : α × α) : Bool := (a.1 ==' b.1) && (a.2 ==' b.2)

/-- the loop over the edges, /repo/src/vpx/mesh/walls.rs:606-626 -/
def wallEdgesClear (rgv : List (α × α)) (vpoly : List Nat) (pv1 pv3 : α × α) : (k i : Nat) → Res Bool
  | 0, _ => .ok true
  | k + 1, i => do
    let j1 ← getOrPanic vpoly i
    let v1 ← getOrPanic rgv j1
    let j2 ← getOrPanic vpoly (if i < vpoly.length - 1 then i + 1 else 0)
    let v2 ← getOrPanic rgv j2
    let minx := min pv1.1 pv3.1
    let maxx := max pv1.1 pv3.1
    let miny := min pv1.2 pv3.2
    let maxy := max pv1.2 pv3.2
    if pairEq v1 pv1 || pairEq v2 pv1 || pairEq v1 pv3 || pairEq v2 pv3 then
      wallEdgesClear rgv vpoly pv1 pv3 k (i + 1)
    else if !((miny ≤' v1.2 || miny ≤' v2.2) && (v1.2 ≤' maxy || v2.2 ≤' maxy)
        && (minx ≤' v1.1 || minx ≤' v2.1) && (v1.1 ≤' maxx || v2.2 ≤' maxx)) then
      wallEdgesClear rgv vpoly pv1 pv3 k (i + 1)
    else if linesIntersect pv1 pv3 v1 v2 then .ok false
    else wallEdgesClear rgv vpoly pv1 pv3 k (i + 1)

/-- `advance_point` of walls, /repo/src/vpx/mesh/walls.rs:577-628 -/
def wallAdvance (rgv : List (α × α)) (vpoly : List Nat) (a b c pre post : Nat) : Res Bool := do
  let pv1 ← getOrPanic rgv a
  let pv2 ← getOrPanic rgv b
  let pv3 ← getOrPanic rgv c
  let pvPre ← getOrPanic rgv pre
  let pvPost ← getOrPanic rgv post
  if badAngle pv1 pv2 pv3 pvPre pvPost then .ok false
  else wallEdgesClear rgv vpoly pv1 pv3 vpoly.length 0

/-- `signed_area`, /repo/src/vpx/mesh/walls.rs:637-645 -/
def signedArea (points : List (α × α)) : α :=
  (points.zip (points.tail ++ points.take 1)).foldl
    (fun area (p, q) => area +' (p.1 *' q.2 -' q.1 *' p.2)) zero

/-- `triangulate_polygon`, /repo/src/vpx/mesh/walls.rs:529-574 -/
def triangulatePolygon (points : List (α × α)) : Res (List Tri) :=
  if points.length < 3 then .ok []
  else
    let vpoly := List.range points.length
    let vpoly := if zero <' signedArea points then vpoly.reverse else vpoly
    clipEars (wallAdvance points) (points.length - 2) vpoly

/-- `find_corner_vertex`, /repo/src/vpx/mesh/mod.rs:697-715 -/
def findCornerVertex (vs : List (α × α)) : Nat :=
  (vs.foldl (fun (i, best, minY, minX) v =>
    if minY <' v.2 then (i + 1, best, minY, minX)
    else if (v.2 ==' minY) && minX ≤' v.1 then (i + 1, best, minY, minX)
    else (i + 1, i, v.2, v.1)) (0, 0, huge, huge)).2.1

/-- `is_clockwise`, /repo/src/vpx/mesh/mod.rs:720-734 -/
def isClockwise (vs : List (α × α)) : Res Bool := do
  let n := vs.length
  if n < 3 then return false
  let iMin := findCornerVertex vs
  let a ← getOrPanic vs ((iMin + n - 1) % n)
  let b ← getOrPanic vs iMin
  let c ← getOrPanic vs ((iMin + 1) % n)
  let det := (b.1 *' c.2 +' a.1 *' b.2 +' a.2 *' c.1) -' (a.2 *' b.1 +' b.2 *' c.1 +' a.1 *' c.2)
  pure (zero <' det)

/-- the loop over the edges, /repo/src/vpx/mesh/mod.rs:822-848 -/
def polyEdgesClear (vs : List (α × α)) (pvpoly : List Nat) (a c : Nat) (pv1 pv3 : α × α) : (k i : Nat) → Res Bool
  | 0, _ => .ok true
  | k + 1, i => do
    let j1 ← getOrPanic pvpoly i
    let v1 ← getOrPanic vs j1
    let j2 ← getOrPanic pvpoly (if i < pvpoly.length - 1 then i + 1 else 0)
    let v2 ← getOrPanic vs j2
    let minx := min pv1.1 pv3.1
    let maxx := max pv1.1 pv3.1
    let miny := min pv1.2 pv3.2
    let maxy := max pv1.2 pv3.2
    if j1 = a || j2 = a || j1 = c || j2 = c then polyEdgesClear vs pvpoly a c pv1 pv3 k (i + 1)
    else if ((v1.2 <' miny) && (v2.2 <' miny)) || ((maxy <' v1.2) && (maxy <' v2.2))
        || ((v1.1 <' minx) && (v2.1 <' minx)) || ((maxx <' v1.1) && (maxx <' v2.2)) then
      polyEdgesClear vs pvpoly a c pv1 pv3 k (i + 1)
    else if linesIntersect pv1 pv3 v1 v2 then .ok false
    else polyEdgesClear vs pvpoly a c pv1 pv3 k (i + 1)

/-- `advance_point`, /repo/src/vpx/mesh/mod.rs:789-851 -/
def polyAdvance (vs : List (α × α)) (pvpoly : List Nat) (a b c pre post : Nat) : Res Bool := do
  let pv1 ← getOrPanic vs a
  let pv2 ← getOrPanic vs b
  let pv3 ← getOrPanic vs c
  let pvPre ← getOrPanic vs pre
  let pvPost ← getOrPanic vs post
  if badAngle pv1 pv2 pv3 pvPre pvPost then .ok false
  else polyEdgesClear vs pvpoly a c pv1 pv3 pvpoly.length 0

/-- `polygon_to_triangles`, /repo/src/vpx/mesh/mod.rs:858-900 -/
def polygonToTriangles (vs : List (α × α)) : Res (List Tri) := do
  if vs.length < 3 then return []
  let cw ← isClockwise vs
  let pvpoly := List.range vs.length
  let pvpoly := if cw then pvpoly.reverse else pvpoly
  clipEars (polyAdvance vs) (vs.length - 2) pvpoly

end
end Vpin.Any
