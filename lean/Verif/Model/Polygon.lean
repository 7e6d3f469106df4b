import Verif.Model.Arith
import Verif.Spec.Surface
/-
Polygon triangulation: the two copies of VPinball's `PolygonToTriangles` in the code, one for wall
tops (walls.rs) and one for flashers and lights (mesh/mod.rs).

Simplification: vertex numbers are `u32` in the code and natural numbers here; a polygon with
2^32 or more points does not fit in memory.
-/
namespace Vpin
open Arith

/-- `struct RenderVertex2D`, /repo/src/vpx/mesh/mod.rs:68-77 -/
structure RenderVertex2D where
  x : F32
  y : F32
  smooth : Bool := false
  slingshot : Bool := false
  control_point : Bool := false
  deriving DecidableEq, Repr

/-! ### The common loop -/

/-- One sweep over the positions `i, i+1, …` of the remaining polygon for an ear, the inner `for`
loop in /repo/src/vpx/mesh/walls.rs:548-565 and /repo/src/vpx/mesh/mod.rs:876-893. `k` is the
number of positions still to try. Gives the triangle and the remaining polygon, or nothing if there
is no ear. `s - 2` and `s - 3` are `usize` subtractions, which panic below zero. -/
def findEar (adv : List Nat → Nat → Nat → Nat → Nat → Nat → Res Bool) (poly : List Nat) :
    (k i : Nat) → Res (Option (Tri × List Nat))
  | 0, _ => .ok none
  | k + 1, i => do
    let s := poly.length
    if s < 3 then throw .panic
    let pre ← getOrPanic poly (if i = 0 then s - 1 else i - 1)
    let a ← getOrPanic poly i
    let b ← getOrPanic poly (if i < s - 1 then i + 1 else 0)
    let c ← getOrPanic poly (if i < s - 2 then i + 2 else i + 2 - s)
    let post ← getOrPanic poly (if i < s - 3 then i + 3 else i + 3 - s)
    let ok ← adv poly a b c pre post
    if ok then
      pure (some ((a, c, b), poly.eraseIdx (if i < s - 1 then i + 1 else 0)))
    else findEar adv poly k (i + 1)

/-- The outer loop `for _ in 0..tricount`, /repo/src/vpx/mesh/walls.rs:546-571 and
/repo/src/vpx/mesh/mod.rs:872-897: clip one ear after the other, stop when there is none. -/
def clipEars (adv : List Nat → Nat → Nat → Nat → Nat → Nat → Res Bool) :
    (tricount : Nat) → List Nat → Res (List Tri)
  | 0, _ => .ok []
  | k + 1, poly => do
    match ← findEar adv poly poly.length 0 with
    | none => pure []
    | some (t, rest) => do
      let ts ← clipEars adv k rest
      pure (t :: ts)

section
variable [Arith]

/-- the intersection test on coordinates shared by both copies of `lines_intersect`,
/repo/src/vpx/mesh/walls.rs:650-681 and /repo/src/vpx/mesh/mod.rs:745-785 (identical bodies) -/
def linesIntersect (s1 s2 e1 e2 : F32 × F32) : Bool :=
  let (x1, y1) := s1
  let (x2, y2) := s2
  let (x3, y3) := e1
  let (x4, y4) := e2
  let d123 := (x2 -ᶠ x1) *ᶠ (y3 -ᶠ y1) -ᶠ (x3 -ᶠ x1) *ᶠ (y2 -ᶠ y1)
  if d123 ==ᶠ 0 then fmin x1 x2 ≤ᶠ x3 && x3 ≤ᶠ fmax x2 x1
  else
    let d124 := (x2 -ᶠ x1) *ᶠ (y4 -ᶠ y1) -ᶠ (x4 -ᶠ x1) *ᶠ (y2 -ᶠ y1)
    if d124 ==ᶠ 0 then fmin x1 x2 ≤ᶠ x4 && x4 ≤ᶠ fmax x2 x1
    else if 0 ≤ᶠ d123 *ᶠ d124 then false
    else
      let d341 := (x3 -ᶠ x1) *ᶠ (y4 -ᶠ y1) -ᶠ (x4 -ᶠ x1) *ᶠ (y3 -ᶠ y1)
      if d341 ==ᶠ 0 then fmin x3 x4 ≤ᶠ x1 && x1 ≤ᶠ fmax x3 x4
      else
        let d342 := d123 -ᶠ d124 +ᶠ d341
        if d342 ==ᶠ 0 then fmin x3 x4 ≤ᶠ x2 && x2 ≤ᶠ fmax x3 x4
        else d341 *ᶠ d342 <ᶠ 0

/-- `dot_2d`, /repo/src/vpx/mesh/walls.rs:632-634, and `get_dot`, /repo/src/vpx/mesh/mod.rs:739-741:
the cross product at the joint -/
def dot2d (end1 joint end2 : F32 × F32) : F32 :=
  (joint.1 -ᶠ end1.1) *ᶠ (joint.2 -ᶠ end2.2) -ᶠ (joint.2 -ᶠ end1.2) *ᶠ (joint.1 -ᶠ end2.1)

/-- the angle tests at the start of both copies of `advance_point`, /repo/src/vpx/mesh/walls.rs:592-597
and /repo/src/vpx/mesh/mod.rs:804-813: true if the candidate is refused -/
def badAngle (pv1 pv2 pv3 pvPre pvPost : F32 × F32) : Bool :=
  dot2d pv1 pv2 pv3 <ᶠ 0
    || (0 <ᶠ dot2d pvPre pv1 pv2 && dot2d pvPre pv1 pv3 <ᶠ 0)
    || (0 <ᶠ dot2d pv2 pv3 pvPost && dot2d pv1 pv3 pvPost <ᶠ 0)

/-! ### Walls -/

/-- equality of a pair of coordinates (used in /repo/src/vpx/mesh/walls.rs:577-628) -/
def pairEq (a b : F32 × F32) : Bool := (a.1 ==ᶠ b.1) && (a.2 ==ᶠ b.2)

/-- the loop over the edges of the remaining polygon, /repo/src/vpx/mesh/walls.rs:606-626; true if
no edge meets the diagonal -/
def wallEdgesClear (rgv : List (F32 × F32)) (vpoly : List Nat) (pv1 pv3 : F32 × F32) :
    (k i : Nat) → Res Bool
  | 0, _ => .ok true
  | k + 1, i => do
    let j1 ← getOrPanic vpoly i
    let v1 ← getOrPanic rgv j1
    let j2 ← getOrPanic vpoly (if i < vpoly.length - 1 then i + 1 else 0)
    let v2 ← getOrPanic rgv j2
    let minx := fmin pv1.1 pv3.1
    let maxx := fmax pv1.1 pv3.1
    let miny := fmin pv1.2 pv3.2
    let maxy := fmax pv1.2 pv3.2
    if pairEq v1 pv1 || pairEq v2 pv1 || pairEq v1 pv3 || pairEq v2 pv3 then
      wallEdgesClear rgv vpoly pv1 pv3 k (i + 1)
    else if !((miny ≤ᶠ v1.2 || miny ≤ᶠ v2.2) && (v1.2 ≤ᶠ maxy || v2.2 ≤ᶠ maxy)
        && (minx ≤ᶠ v1.1 || minx ≤ᶠ v2.1) && (v1.1 ≤ᶠ maxx || v2.2 ≤ᶠ maxx)) then
      wallEdgesClear rgv vpoly pv1 pv3 k (i + 1)
    else if linesIntersect pv1 pv3 v1 v2 then .ok false
    else wallEdgesClear rgv vpoly pv1 pv3 k (i + 1)

/-- `advance_point` of walls, /repo/src/vpx/mesh/walls.rs:577-628 -/
def wallAdvance (rgv : List (F32 × F32)) (vpoly : List Nat) (a b c pre post : Nat) : Res Bool := do
  let pv1 ← getOrPanic rgv a
  let pv2 ← getOrPanic rgv b
  let pv3 ← getOrPanic rgv c
  let pvPre ← getOrPanic rgv pre
  let pvPost ← getOrPanic rgv post
  if badAngle pv1 pv2 pv3 pvPre pvPost then .ok false
  else wallEdgesClear rgv vpoly pv1 pv3 vpoly.length 0

/-- `signed_area`, /repo/src/vpx/mesh/walls.rs:637-645; `points[(i + 1) % points.len()]` is the next
point, the first one after the last -/
def signedArea (points : List (F32 × F32)) : F32 :=
  (points.zip (points.tail ++ points.take 1)).foldl
    (fun area (p, q) => area +ᶠ (p.1 *ᶠ q.2 -ᶠ q.1 *ᶠ p.2)) 0

/-- `triangulate_polygon`, /repo/src/vpx/mesh/walls.rs:529-574 -/
def triangulatePolygon (points : List (F32 × F32)) : Res (List Tri) :=
  if points.length < 3 then .ok []
  else
    let vpoly := List.range points.length
    let vpoly := if 0 <ᶠ signedArea points then vpoly.reverse else vpoly
    clipEars (wallAdvance points) (points.length - 2) vpoly

/-! ### Flashers and lights -/

/-- `find_corner_vertex`, /repo/src/vpx/mesh/mod.rs:697-715; the fold carries the number of the next
point, the number of the best one and its coordinates -/
def findCornerVertex (vs : List RenderVertex2D) : Nat :=
  (vs.foldl (fun (i, best, minY, minX) v =>
    if minY <ᶠ v.y then (i + 1, best, minY, minX)
    else if (v.y ==ᶠ minY) && minX ≤ᶠ v.x then (i + 1, best, minY, minX)
    else (i + 1, i, v.y, v.x)) (0, 0, fMax, fMax)).2.1

/-- `is_clockwise`, /repo/src/vpx/mesh/mod.rs:720-734 -/
def isClockwise (vs : List RenderVertex2D) : Res Bool := do
  let n := vs.length
  if n < 3 then return false
  let iMin := findCornerVertex vs
  let a ← getOrPanic vs ((iMin + n - 1) % n)
  let b ← getOrPanic vs iMin
  let c ← getOrPanic vs ((iMin + 1) % n)
  let det := (b.x *ᶠ c.y +ᶠ a.x *ᶠ b.y +ᶠ a.y *ᶠ c.x) -ᶠ (a.y *ᶠ b.x +ᶠ b.y *ᶠ c.x +ᶠ a.x *ᶠ c.y)
  pure (0 <ᶠ det)

/-- the coordinates of a vertex (used in /repo/src/vpx/mesh/mod.rs:858-900) -/
def RenderVertex2D.xy (v : RenderVertex2D) : F32 × F32 := (v.x, v.y)

/-- the loop over the edges of the remaining polygon, /repo/src/vpx/mesh/mod.rs:822-848.
`std::ptr::eq` on two elements of the same slice compares their positions. -/
def polyEdgesClear (vs : List RenderVertex2D) (pvpoly : List Nat) (a c : Nat) (pv1 pv3 : F32 × F32) :
    (k i : Nat) → Res Bool
  | 0, _ => .ok true
  | k + 1, i => do
    let j1 ← getOrPanic pvpoly i
    let v1 ← getOrPanic vs j1
    let j2 ← getOrPanic pvpoly (if i < pvpoly.length - 1 then i + 1 else 0)
    let v2 ← getOrPanic vs j2
    let minx := fmin pv1.1 pv3.1
    let maxx := fmax pv1.1 pv3.1
    let miny := fmin pv1.2 pv3.2
    let maxy := fmax pv1.2 pv3.2
    if j1 = a || j2 = a || j1 = c || j2 = c then polyEdgesClear vs pvpoly a c pv1 pv3 k (i + 1)
    else if ((v1.y <ᶠ miny) && (v2.y <ᶠ miny)) || ((maxy <ᶠ v1.y) && (maxy <ᶠ v2.y))
        || ((v1.x <ᶠ minx) && (v2.x <ᶠ minx)) || ((maxx <ᶠ v1.x) && (maxx <ᶠ v2.y)) then
      polyEdgesClear vs pvpoly a c pv1 pv3 k (i + 1)
    else if linesIntersect pv1 pv3 v1.xy v2.xy then .ok false
    else polyEdgesClear vs pvpoly a c pv1 pv3 k (i + 1)

/-- `advance_point`, /repo/src/vpx/mesh/mod.rs:789-851 -/
def polyAdvance (vs : List RenderVertex2D) (pvpoly : List Nat) (a b c pre post : Nat) :
    Res Bool := do
  let pv1 ← getOrPanic vs a
  let pv2 ← getOrPanic vs b
  let pv3 ← getOrPanic vs c
  let pvPre ← getOrPanic vs pre
  let pvPost ← getOrPanic vs post
  if badAngle pv1.xy pv2.xy pv3.xy pvPre.xy pvPost.xy then .ok false
  else polyEdgesClear vs pvpoly a c pv1.xy pv3.xy pvpoly.length 0

/-- `polygon_to_triangles`, /repo/src/vpx/mesh/mod.rs:858-900; three numbers per triangle are pushed
to one list there -/
def polygonToTriangles (vs : List RenderVertex2D) : Res (List Tri) := do
  if vs.length < 3 then return []
  let cw ← isClockwise vs
  let pvpoly := List.range vs.length
  let pvpoly := if cw then pvpoly.reverse else pvpoly
  clipEars (polyAdvance vs) (vs.length - 2) pvpoly

end
end Vpin
