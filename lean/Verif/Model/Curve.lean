import Verif.Model.Polygon
import Verif.Model.Items.DragPoint
/-
Smooth curves through drag points: Catmull-Rom splines, recursive subdivision, and the functions
that turn the drag points of walls, rubbers, flashers, lights and ramps into curve points.

`x.powi(2)` is `x * x`. The recursion of `recurse_smooth_line_2d` has no bound in the code; here it
has a fuel argument, and running out of it is the error `.fuel` (in the code: the stack overflows
or the recursion goes on).
-/
namespace Vpin
open Arith

/-- `struct RenderVertex3D`, /repo/src/vpx/mesh/mod.rs:82-92 -/
structure RenderVertex3D where
  x : F32
  y : F32
  z : F32
  smooth : Bool := false
  slingshot : Bool := false
  control_point : Bool := false
  deriving DecidableEq, Repr

/-- the operations of the splines. The code computes with `f32`; the definitions that take this class can also be read
with exact numbers. (used in /repo/src/vpx/mesh/mod.rs:191-200) -/
class SplineOps (α : Type) where
  add : α → α → α
  sub : α → α → α
  mul : α → α → α
  div : α → α → α
  neg : α → α
  one : α
  two : α
  three : α

/-- the operations of the code (used in /repo/src/vpx/mesh/mod.rs:191-200) -/
instance [Arith] : SplineOps F32 where
  add := Arith.add
  sub := Arith.sub
  mul := Arith.mul
  div := Arith.div
  neg := F32.neg
  one := f32One
  two := fTwo
  three := fThree

/-- the four coefficients of a cubic polynomial, /repo/src/vpx/mesh/mod.rs:191-200 -/
structure Cubic (α : Type) where
  c0 : α
  c1 : α
  c2 : α
  c3 : α

section
variable {α : Type} [SplineOps α]
open SplineOps
local infixl:65 " +ˢ " => SplineOps.add
local infixl:65 " -ˢ " => SplineOps.sub
local infixl:70 " *ˢ " => SplineOps.mul
local infixl:70 " /ˢ " => SplineOps.div

/-- `init_cubic_spline_coeffs`, /repo/src/vpx/mesh/mod.rs:159-165 -/
def initCubicSplineCoeffs (x0 x1 t0 t1 : α) : Cubic α where
  c0 := x0
  c1 := t0
  c2 := neg three *ˢ x0 +ˢ three *ˢ x1 -ˢ two *ˢ t0 -ˢ t1
  c3 := two *ˢ x0 -ˢ two *ˢ x1 +ˢ t0 +ˢ t1

/-- `init_nonuniform_catmull_coeffs`, /repo/src/vpx/mesh/mod.rs:168-186 -/
def initNonuniformCatmullCoeffs (x0 x1 x2 x3 dt0 dt1 dt2 : α) : Cubic α :=
  let t1 := (x1 -ˢ x0) /ˢ dt0 -ˢ (x2 -ˢ x0) /ˢ (dt0 +ˢ dt1) +ˢ (x2 -ˢ x1) /ˢ dt1
  let t2 := (x2 -ˢ x1) /ˢ dt1 -ˢ (x3 -ˢ x1) /ˢ (dt1 +ˢ dt2) +ˢ (x3 -ˢ x2) /ˢ dt2
  initCubicSplineCoeffs x1 x2 (t1 *ˢ dt1) (t2 *ˢ dt1)

/-- the polynomial at `t`, one line of `get_point_at`, /repo/src/vpx/mesh/mod.rs:252-260, 514-523 -/
def Cubic.at (c : Cubic α) (t : α) : α :=
  let t2 := t *ˢ t
  let t3 := t2 *ˢ t
  c.c3 *ˢ t3 +ˢ c.c2 *ˢ t2 +ˢ c.c1 *ˢ t +ˢ c.c0

/-- the three parameter steps after the check for repeated control points (`small`: less than 1e-4),
/repo/src/vpx/mesh/mod.rs:225-233, 481-489 -/
def repairSteps (small : α → Bool) (dt0 dt1 dt2 : α) : α × α × α :=
  let dt1 := if small dt1 then one else dt1
  let dt0 := if small dt0 then dt1 else dt0
  let dt2 := if small dt2 then dt1 else dt2
  (dt0, dt1, dt2)

/-- `struct CatmullCurve2D`, /repo/src/vpx/mesh/mod.rs:191-200 -/
structure CatmullCurve2D (α : Type) where
  cx : Cubic α
  cy : Cubic α

/-- `CatmullCurve2D::new`, /repo/src/vpx/mesh/mod.rs:203-250, for points with coordinates `x` and `y`; `step` is the
parameter step between two points -/
def CatmullCurve2D.through {π : Type} (x y : π → α) (step : π → π → α) (small : α → Bool) (v0 v1 v2 v3 : π) :
    CatmullCurve2D α :=
  let (dt0, dt1, dt2) := repairSteps small (step v0 v1) (step v1 v2) (step v2 v3)
  { cx := initNonuniformCatmullCoeffs (x v0) (x v1) (x v2) (x v3) dt0 dt1 dt2
    cy := initNonuniformCatmullCoeffs (y v0) (y v1) (y v2) (y v3) dt0 dt1 dt2 }

/-- `struct CatmullCurve3D`, /repo/src/vpx/mesh/mod.rs:433-446 -/
structure CatmullCurve3D (α : Type) where
  cx : Cubic α
  cy : Cubic α
  cz : Cubic α

/-- `CatmullCurve3D::new`, /repo/src/vpx/mesh/mod.rs:449-512 -/
def CatmullCurve3D.through {π : Type} (x y z : π → α) (step : π → π → α) (small : α → Bool) (v0 v1 v2 v3 : π) :
    CatmullCurve3D α :=
  let (dt0, dt1, dt2) := repairSteps small (step v0 v1) (step v1 v2) (step v2 v3)
  { cx := initNonuniformCatmullCoeffs (x v0) (x v1) (x v2) (x v3) dt0 dt1 dt2
    cy := initNonuniformCatmullCoeffs (y v0) (y v1) (y v2) (y v3) dt0 dt1 dt2
    cz := initNonuniformCatmullCoeffs (z v0) (z v1) (z v2) (z v3) dt0 dt1 dt2 }

end

section
variable [Arith]

/-- the parameter step of flat curves: the fourth root of the squared distance,
/repo/src/vpx/mesh/mod.rs:210-223 -/
def step2D (a b : RenderVertex2D) : F32 :=
  sqrt (sqrt ((b.x -ᶠ a.x) *ᶠ (b.x -ᶠ a.x) +ᶠ (b.y -ᶠ a.y) *ᶠ (b.y -ᶠ a.y)))

/-- `CatmullCurve2D::new`, /repo/src/vpx/mesh/mod.rs:203-250 -/
def CatmullCurve2D.new (v0 v1 v2 v3 : RenderVertex2D) : CatmullCurve2D F32 :=
  .through (·.x) (·.y) step2D (· <ᶠ f1em4) v0 v1 v2 v3

/-- the curve point at `t`: `get_point_at` and the vertex built from it,
/repo/src/vpx/mesh/mod.rs:252-260, 289-296 -/
def CatmullCurve2D.vertexAt (cc : CatmullCurve2D F32) (t : F32) : RenderVertex2D :=
  { x := cc.cx.at t, y := cc.cy.at t, smooth := true }

/-- `flat_with_accuracy_2d`, /repo/src/vpx/mesh/mod.rs:265-277 -/
def flatWithAccuracy2D (v1 v2 vmid : RenderVertex2D) (accuracy : F32) : Bool :=
  let dblarea := (vmid.x -ᶠ v1.x) *ᶠ (v2.y -ᶠ v1.y) -ᶠ (v2.x -ᶠ v1.x) *ᶠ (vmid.y -ᶠ v1.y)
  dblarea *ᶠ dblarea <ᶠ accuracy

/-- `recurse_smooth_line_2d`, /repo/src/vpx/mesh/mod.rs:280-304; the vertices pushed to `vv` -/
def recurseSmoothLine2D (cc : CatmullCurve2D F32) (accuracy : F32) :
    (fuel : Nat) → (t1 t2 : F32) → (vt1 vt2 : RenderVertex2D) → Res (List RenderVertex2D)
  | 0, _, _, _, _ => .error .fuel
  | fuel + 1, t1, t2, vt1, vt2 => do
    let tMid := (t1 +ᶠ t2) *ᶠ fHalf
    let vmid := cc.vertexAt tMid
    if flatWithAccuracy2D vt1 vt2 vmid accuracy then pure [vt1]
    else do
      let a ← recurseSmoothLine2D cc accuracy fuel t1 tMid vt1 vmid
      let b ← recurseSmoothLine2D cc accuracy fuel tMid t2 vmid vt2
      pure (a ++ b)

/-- the render vertex of a drag point: `v0` … `v3`, `rendv1`, `rendv2` in
/repo/src/vpx/mesh/mod.rs:377-422 -/
def controlVertex2D (p : DragPoint) : RenderVertex2D :=
  { x := p.x, y := p.y, smooth := p.smooth, control_point := true }

/-- two drag points coincide, /repo/src/vpx/mesh/mod.rs:342-344 -/
def coincide2D (p q : DragPoint) : Bool :=
  ((p.x -ᶠ q.x).abs <ᶠ f1em6) && ((p.y -ᶠ q.y).abs <ᶠ f1em6)

/-- one pass of the loop in `get_rg_vertex_2d`, /repo/src/vpx/mesh/mod.rs:337-425: the curve from drag
point `i` to the next one -/
def rgSegment2D (fuel : Nat) (dps : List DragPoint) (accuracy : F32) (loop : Bool) (i : Nat) :
    Res (List RenderVertex2D) := do
  let cpoint := dps.length
  let pdp1 ← getOrPanic dps i
  let pdp2 ← getOrPanic dps ((i + 1) % cpoint)
  if coincide2D pdp1 pdp2 then return []
  let iprev :=
    if pdp1.smooth then
      if loop then (i + cpoint - 1) % cpoint else if i > 0 then i - 1 else i
    else i
  let inext :=
    if pdp2.smooth then
      if loop then (i + 2) % cpoint else if i + 2 < cpoint then i + 2 else i + 1
    else (i + 1) % cpoint
  let pdp0 ← getOrPanic dps iprev
  let pdp3 ← getOrPanic dps (if loop then inext else min inext (cpoint - 1))
  let cc := CatmullCurve2D.new (controlVertex2D pdp0) (controlVertex2D pdp1) (controlVertex2D pdp2)
    (controlVertex2D pdp3)
  recurseSmoothLine2D cc accuracy fuel 0 f32One (controlVertex2D pdp1) (controlVertex2D pdp2)

/-- `get_rg_vertex_2d`, /repo/src/vpx/mesh/mod.rs:324-428 -/
def getRgVertex2D (fuel : Nat) (dps : List DragPoint) (accuracy : F32) (loop : Bool) :
    Res (List RenderVertex2D) := do
  if dps.length < 2 then return []
  let endpoint := if loop then dps.length else dps.length - 1
  let parts ← (List.range endpoint).mapM (rgSegment2D fuel dps accuracy loop)
  pure parts.flatten

/-- `smooth_drag_points_2d`, /repo/src/vpx/mesh/mod.rs:310-319 -/
def smoothDragPoints2D (fuel : Nat) (dps : List DragPoint) (accuracy : F32) (loop : Bool) :
    Res (List (F32 × F32)) := do
  let vv ← getRgVertex2D fuel dps accuracy loop
  pure (vv.map fun v => (v.x, v.y))

/-! ### Three dimensions -/

/-- the parameter step of curves in space, /repo/src/vpx/mesh/mod.rs:456-479 -/
def step3D (a b : RenderVertex3D) : F32 := sqrt (Vec3.length (Vec3.sub ⟨b.x, b.y, b.z⟩ ⟨a.x, a.y, a.z⟩))

/-- `CatmullCurve3D::new`, /repo/src/vpx/mesh/mod.rs:449-512 -/
def CatmullCurve3D.new (v0 v1 v2 v3 : RenderVertex3D) : CatmullCurve3D F32 :=
  .through (·.x) (·.y) (·.z) step3D (· <ᶠ f1em4) v0 v1 v2 v3

/-- the curve point at `t`, /repo/src/vpx/mesh/mod.rs:514-523, 562-569 -/
def CatmullCurve3D.vertexAt (cc : CatmullCurve3D F32) (t : F32) : RenderVertex3D :=
  { x := cc.cx.at t, y := cc.cy.at t, z := cc.cz.at t, smooth := true }

/-- `flat_with_accuracy_3d`, /repo/src/vpx/mesh/mod.rs:528-549 -/
def flatWithAccuracy3D (v1 v2 vmid : RenderVertex3D) (accuracy : F32) : Bool :=
  let c := Vec3.cross ⟨vmid.x -ᶠ v1.x, vmid.y -ᶠ v1.y, vmid.z -ᶠ v1.z⟩
    ⟨v2.x -ᶠ v1.x, v2.y -ᶠ v1.y, v2.z -ᶠ v1.z⟩
  c.x *ᶠ c.x +ᶠ c.y *ᶠ c.y +ᶠ c.z *ᶠ c.z <ᶠ accuracy

/-- `recurse_smooth_line_3d`, /repo/src/vpx/mesh/mod.rs:552-577 -/
def recurseSmoothLine3D (cc : CatmullCurve3D F32) (accuracy : F32) :
    (fuel : Nat) → (t1 t2 : F32) → (vt1 vt2 : RenderVertex3D) → Res (List RenderVertex3D)
  | 0, _, _, _, _ => .error .fuel
  | fuel + 1, t1, t2, vt1, vt2 => do
    let tMid := (t1 +ᶠ t2) *ᶠ fHalf
    let vmid := cc.vertexAt tMid
    if flatWithAccuracy3D vt1 vt2 vmid accuracy then pure [vt1]
    else do
      let a ← recurseSmoothLine3D cc accuracy fuel t1 tMid vt1 vmid
      let b ← recurseSmoothLine3D cc accuracy fuel tMid t2 vmid vt2
      pure (a ++ b)

/-- the render vertex of a drag point, /repo/src/vpx/mesh/mod.rs:619-671 -/
def controlVertex3D (p : DragPoint) : RenderVertex3D :=
  { x := p.x, y := p.y, z := p.z, smooth := p.smooth, control_point := true }

/-- two drag points coincide, /repo/src/vpx/mesh/mod.rs:601-607 -/
def coincide3D (p q : DragPoint) : Bool :=
  ((p.x -ᶠ q.x).abs <ᶠ f1em6) && ((p.y -ᶠ q.y).abs <ᶠ f1em6) && ((p.z -ᶠ q.z).abs <ᶠ f1em6)

/-- one pass of the loop in `get_rg_vertex_3d`, /repo/src/vpx/mesh/mod.rs:597-674 -/
def rgSegment3D (fuel : Nat) (dps : List DragPoint) (accuracy : F32) (i : Nat) :
    Res (List RenderVertex3D) := do
  let pdp1 ← getOrPanic dps i
  let pdp2 ← getOrPanic dps (i + 1)
  if coincide3D pdp1 pdp2 then return []
  let iprev := if pdp1.smooth && i > 0 then i - 1 else i
  let inext := if pdp2.smooth && i + 2 < dps.length then i + 2 else i + 1
  let pdp0 ← getOrPanic dps iprev
  let pdp3 ← getOrPanic dps inext
  let cc := CatmullCurve3D.new (controlVertex3D pdp0) (controlVertex3D pdp1) (controlVertex3D pdp2)
    (controlVertex3D pdp3)
  recurseSmoothLine3D cc accuracy fuel 0 f32One (controlVertex3D pdp1) (controlVertex3D pdp2)

/-- `get_rg_vertex_3d`, /repo/src/vpx/mesh/mod.rs:583-689 -/
def getRgVertex3D (fuel : Nat) (dps : List DragPoint) (accuracy : F32) :
    Res (List RenderVertex3D) := do
  if dps.length < 2 then return []
  let parts ← (List.range (dps.length - 1)).mapM (rgSegment3D fuel dps accuracy)
  let tail := match dps.getLast? with
    | some p => [{ controlVertex3D p with smooth := true }]
    | none => []
  pure (parts.flatten ++ tail)

/-- `detail_level_to_accuracy`, /repo/src/vpx/mesh/mod.rs:61-63 -/
def detailLevelToAccuracy (detailLevel : F32) : F32 :=
  fFour *ᶠ powf fTen ((fTen -ᶠ detailLevel) /ᶠ fOneHalf)

/-- `vpinball_ring_segments`, /repo/src/vpx/mesh/mod.rs:33-48 -/
def ringSegments (detailLevel : UInt32) (staticRendering : Bool) : Nat :=
  if staticRendering then 12
  else if detailLevel < 5 then 6
  else if detailLevel < 8 then 8
  else f32AsU32 (ofNat detailLevel.toNat *ᶠ f1p3)

end
end Vpin
