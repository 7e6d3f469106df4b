import Verif.Model.RubberMesh
import Verif.Model.Items.Ramp
/-
Meshes of ramps, /repo/src/vpx/mesh/ramps.rs, and the closest point on a line,
/repo/src/vpx/mesh/mod.rs:902-972.
-/
namespace Vpin
open Arith

/-- `is_habitrail`, /repo/src/vpx/mesh/ramps.rs:137-146 -/
def isHabitrail (ramp : Ramp) : Bool :=
  match ramp.ramp_type with
  | .FourWire | .OneWire | .TwoWire | .ThreeWireLeft | .ThreeWireRight => true
  | .Flat => false

/-- the result of `get_ramp_vertex`: outline (right side, then the left side backwards), heights and
ratios, /repo/src/vpx/mesh/ramps.rs:18-134 -/
structure RampOutline where
  outline : List Vec2
  heights : List F32
  ratios : List F32
  deriving DecidableEq

section
variable [Arith]

/-- length between two points in the plane, /repo/src/vpx/mesh/ramps.rs:38-40 and 99-101 -/
def planeLength (p q : RenderVertex3D) : F32 :=
  let dx := p.x -ᶠ q.x
  let dy := p.y -ᶠ q.y
  sqrt (dx *ᶠ dx +ᶠ dy *ᶠ dy)

/-- the total length of the curve, /repo/src/vpx/mesh/ramps.rs:32-41 -/
def rampLength (vv : List RenderVertex3D) : Res F32 :=
  (List.range (vv.length - 1)).foldlM (fun total i => do
    let v1 ← getOrPanic vv i
    let v2 ← getOrPanic vv (i + 1)
    pure (total +ᶠ planeLength v1 v2)) 0

/-- the normal at a point, /repo/src/vpx/mesh/ramps.rs:54-94 -/
def rampNormal (i cvertex : Nat) (vprev vmiddle vnext : RenderVertex3D) : Vec2 :=
  let v1normal : Vec2 := ⟨vprev.y -ᶠ vmiddle.y, vmiddle.x -ᶠ vprev.x⟩
  let v2normal : Vec2 := ⟨vmiddle.y -ᶠ vnext.y, vnext.x -ᶠ vmiddle.x⟩
  if i = cvertex - 1 then v1normal.normalize
  else if i = 0 then v2normal.normalize
  else
    let v1n := v1normal.normalize
    let v2n := v2normal.normalize
    if ((v1n.x -ᶠ v2n.x).abs <ᶠ f1em4) && ((v1n.y -ᶠ v2n.y).abs <ᶠ f1em4) then v1n
    else
      let a := vprev.y -ᶠ vmiddle.y
      let b := vmiddle.x -ᶠ vprev.x
      let c := a *ᶠ (v1n.x -ᶠ vprev.x) +ᶠ b *ᶠ (v1n.y -ᶠ vprev.y)
      let d := vnext.y -ᶠ vmiddle.y
      let e := vmiddle.x -ᶠ vnext.x
      let f := d *ᶠ (v2n.x -ᶠ vnext.x) +ᶠ e *ᶠ (v2n.y -ᶠ vnext.y)
      let det := a *ᶠ e -ᶠ b *ᶠ d
      let invDet := if det ==ᶠ 0 then 0 else f32One /ᶠ det
      let ix := (b *ᶠ f -ᶠ e *ᶠ c) *ᶠ invDet
      let iy := (c *ᶠ d -ᶠ a *ᶠ f) *ᶠ invDet
      ⟨vmiddle.x -ᶠ ix, vmiddle.y -ᶠ iy⟩

/-- the width of the ramp, /repo/src/vpx/mesh/ramps.rs:108-121 -/
def rampWidth (ramp : Ramp) (incWidth : Bool) (percentage : F32) : F32 :=
  let widthcur := percentage *ᶠ (ramp.width_top -ᶠ ramp.width_bottom) +ᶠ ramp.width_bottom
  if isHabitrail ramp && ramp.ramp_type != .OneWire then
    if incWidth then ramp.wire_distance_x +ᶠ fTwenty else ramp.wire_distance_x
  else if ramp.ramp_type == .OneWire then ramp.wire_diameter
  else widthcur

/-- what is computed at one point of the curve: the two sides, height and ratio, /repo/src/vpx/mesh/ramps.rs:18-134 -/
structure RampPoint where
  right : Vec2
  left : Vec2
  height : F32
  ratio : F32

/-- one turn of the loop, /repo/src/vpx/mesh/ramps.rs:48-129; the length so far is passed on -/
def rampPoint (ramp : Ramp) (vv : List RenderVertex3D) (incWidth : Bool) (total current : F32) (i : Nat) :
    Res (RampPoint × F32) := do
  let vprev ← getOrPanic vv (if i > 0 then i - 1 else i)
  let vnext ← getOrPanic vv (if i < vv.length - 1 then i + 1 else i)
  let vmiddle ← getOrPanic vv i
  let vnormal := rampNormal i vv.length vprev vmiddle vnext
  let current := current +ᶠ planeLength vprev vmiddle
  let percentage := if 0 <ᶠ total then current /ᶠ total else 0
  let half := rampWidth ramp incWidth percentage *ᶠ fHalf
  let vmid : Vec2 := ⟨vmiddle.x, vmiddle.y⟩
  pure (⟨vmid.add (vnormal.scale half), vmid.sub (vnormal.scale half),
    vmiddle.z +ᶠ percentage *ᶠ (ramp.height_top -ᶠ ramp.height_bottom) +ᶠ ramp.height_bottom,
    f32One -ᶠ percentage⟩, current)

/-- `get_ramp_vertex`, /repo/src/vpx/mesh/ramps.rs:18-134. The left side is written from the end of the
array of the outline. -/
def getRampVertex (ramp : Ramp) (vv : List RenderVertex3D) (incWidth : Bool) : Res RampOutline := do
  if vv.length = 0 then pure ⟨[], [], []⟩
  else do
    let total ← rampLength vv
    let pts ← (List.range vv.length).foldlM
      (fun (s : List RampPoint × F32) i => do
        let (p, current) ← rampPoint ramp vv incWidth total s.2 i
        pure (s.1 ++ [p], current)) ([], 0)
    pure ⟨pts.1.map (·.right) ++ (pts.1.map (·.left)).reverse, pts.1.map (·.height),
      pts.1.map (·.ratio)⟩

end

/-- the indices of a strip of `n` pairs of vertices, /repo/src/vpx/mesh/ramps.rs:219-227. The walls have the
same indices, moved by the number of vertices before them (229-245); the offset is taken out again when
the parts are collected (317-351). -/
def stripTris (n : Nat) : List Tri := (List.range (n - 1)).flatMap fun i =>
  [(i * 2, i * 2 + 1, i * 2 + 3), (i * 2, i * 2 + 3, i * 2 + 2)]

section
variable [Arith]

/-- the two floor vertices at a point, /repo/src/vpx/mesh/ramps.rs:190-217 -/
def floorPair (ramp : Ramp) (dims : TableDims) (right left : Vec2) (height ratio : F32) : List Vertex :=
  let invW := f32One /ᶠ (dims.right -ᶠ dims.left)
  let invH := f32One /ᶠ (dims.bottom -ᶠ dims.top)
  let tex (p : Vec2) (u : F32) : F32 × F32 :=
    if ramp.image ≠ [] then
      if ramp.image_alignment = .World then (p.x *ᶠ invW, p.y *ᶠ invH) else (u, ratio)
    else (0, 0)
  let r := tex right f32One
  let l := tex left 0
  [⟨right.x, right.y, height, 0, 0, 0, r.1, r.2⟩, ⟨left.x, left.y, height, 0, 0, 0, l.1, l.2⟩]

/-- the two vertices of a wall at a point, /repo/src/vpx/mesh/ramps.rs:258-273 and 281-296 -/
def wallPair (ramp : Ramp) (p : Vec2) (height ratio wallHeight : F32) : List Vertex :=
  let tv := if ramp.image ≠ [] ∧ ramp.image_walls then ratio else 0
  [⟨p.x, p.y, height, 0, 0, 0, 0, tv⟩, ⟨p.x, p.y, height +ᶠ wallHeight, 0, 0, 0, 0, tv⟩]

/-- the vertices of a strip, with their normals, /repo/src/vpx/mesh/ramps.rs:149 -/
def stripMesh (n : Nat) (pair : Nat → Res (List Vertex)) : Res GenMesh := do
  let pairs ← (List.range n).mapM pair
  pure ⟨computeNormals pairs.flatten (stripTris n), stripTris n⟩

/-- `build_flat_ramp_mesh`, /repo/src/vpx/mesh/ramps.rs:149-369. The three parts are built separately
here; the code keeps them in one array, and collects those that are visible. -/
def buildFlatRampMesh (ramp : Ramp) (vv : List RenderVertex3D) (dims : TableDims) :
    Res (Option GenMesh) := do
  let o ← getRampVertex ramp vv true
  let n := vv.length
  if n < 2 then pure none
  else do
    let floor ← stripMesh n fun i => do
      let right ← getOrPanic o.outline i
      let left ← getOrPanic o.outline (n * 2 - i - 1)
      let height ← getOrPanic o.heights i
      let ratio ← getOrPanic o.ratios i
      pure (floorPair ramp dims right left height ratio)
    let rightWall ← stripMesh n fun i => do
      let p ← getOrPanic o.outline i
      let height ← getOrPanic o.heights i
      let ratio ← getOrPanic o.ratios i
      pure (wallPair ramp p height ratio ramp.right_wall_height_visible)
    let leftWall ← stripMesh n fun i => do
      let p ← getOrPanic o.outline (n * 2 - i - 1)
      let height ← getOrPanic o.heights i
      let ratio ← getOrPanic o.ratios i
      pure (wallPair ramp p height ratio ramp.left_wall_height_visible)
    let m := floor
    let m := if 0 <ᶠ ramp.right_wall_height_visible then m.join rightWall else m
    let m := if 0 <ᶠ ramp.left_wall_height_visible then m.join leftWall else m
    if m.vertices.isEmpty || m.tris.isEmpty then pure none else pure (some m)

/-- one vertex of a wire, /repo/src/vpx/mesh/ramps.rs:443-468 -/
def wireVertex (diameter : F32) (numSegments : Nat) (mid : Vec2) (height : F32) (tangent normal : Vec3)
    (u : F32) (j : Nat) : Vertex :=
  let invNs := f32One /ᶠ ofNat numSegments
  let v := (ofNat j +ᶠ u) *ᶠ invNs
  let angle := ofNat j *ᶠ f360 *ᶠ invNs
  let tmp := (getRotatedAxis angle tangent normal).scale (diameter *ᶠ fHalf)
  let x := mid.x +ᶠ tmp.x
  let y := mid.y +ᶠ tmp.y
  let z := height +ᶠ tmp.z
  let n : Vec3 := ⟨x -ᶠ mid.x, y -ᶠ mid.y, z -ᶠ height⟩
  let len := n.length
  if 0 <ᶠ len then ⟨x, y, z, n.x /ᶠ len, n.y /ᶠ len, n.z /ᶠ len, u, v⟩ else ⟨x, y, z, 0, 0, 0, u, v⟩

/-- one ring of a wire, /repo/src/vpx/mesh/ramps.rs:397-470; gives the binormal for the next ring -/
def wireRing (diameter : F32) (numRings numSegments : Nat) (mp : List Vec2) (heights : List F32)
    (prevBinorm : Vec3) (i : Nat) : Res (List Vertex × Vec3) := do
  let i2 := if i = numRings - 1 then i else i + 1
  let height ← getOrPanic heights i
  let p2 ← getOrPanic mp i2
  let p ← getOrPanic mp i
  let h2 ← getOrPanic heights i2
  let tangent : Vec3 := ⟨p2.x -ᶠ p.x, p2.y -ᶠ p.y, h2 -ᶠ height⟩
  let tangent ← if i = numRings - 1 ∧ i > 0 then do
      let p0 ← getOrPanic mp (i - 1)
      pure (Vec3.mk (p.x -ᶠ p0.x) (p.y -ᶠ p0.y) tangent.z)
    else pure tangent
  let normal :=
    if i = 0 then Vec3.cross tangent ⟨p2.x +ᶠ p.x, p2.y +ᶠ p.y, h2 -ᶠ height⟩
    else Vec3.cross prevBinorm tangent
  let binorm := (Vec3.cross tangent normal).normalize
  let normal := normal.normalize
  let u := ofNat i *ᶠ (f32One /ᶠ ofNat numRings)
  pure ((List.range numSegments).map (wireVertex diameter numSegments p height tangent normal u), binorm)

/-- `create_wire`, /repo/src/vpx/mesh/ramps.rs:372-473 -/
def createWire (diameter : F32) (numRings numSegments : Nat) (mp : List Vec2) (heights : List F32) :
    Res (List Vertex) := do
  let r ← (List.range numRings).foldlM
    (fun (s : List Vertex × Vec3) i => do
      let (ring, binorm) ← wireRing diameter numRings numSegments mp heights s.2 i
      pure (s.1 ++ ring, binorm)) ([], ⟨0, 0, 0⟩)
  pure r.1

end

/-- the indices of a wire, /repo/src/vpx/mesh/ramps.rs:546-585 -/
def wireTris (numRings numSegments : Nat) : List Tri :=
  (List.range (numRings - 1)).flatMap fun i =>
    (List.range numSegments).flatMap (rubberCell numRings numSegments i)

section
variable [Arith]

/-- raise a wire, e.g. /repo/src/vpx/mesh/ramps.rs:605-607 -/
def raiseWire (d : F32) (vs : List Vertex) : List Vertex := vs.map fun v => { v with z := v.z +ᶠ d }

/-- the middle points of a single wire, /repo/src/vpx/mesh/ramps.rs:512-533 -/
def wireMiddle (ramp : Ramp) (right left : Vec2) : Vec2 :=
  let inv := if ramp.wire_diameter ==ᶠ 0 then 0 else f32One /ᶠ ramp.wire_diameter
  ⟨(right.x +ᶠ left.x) *ᶠ fHalf +ᶠ (right.x -ᶠ left.x) *ᶠ inv,
    (right.y +ᶠ left.y) *ᶠ fHalf +ᶠ (right.y -ᶠ left.y) *ᶠ inv⟩

/-- `build_wire_ramp_mesh`, /repo/src/vpx/mesh/ramps.rs:476-763 -/
def buildWireRampMesh (ramp : Ramp) (vv : List RenderVertex3D) (detailLevel : UInt32)
    (opacityActive : Bool) : Res (Option GenMesh) := do
  let o ← getRampVertex ramp vv false
  let n := vv.length
  if n < 2 then pure none
  else do
    let s := ringSegments detailLevel (!opacityActive)
    let mid ← (List.range n).mapM fun i => do
      let right ← getOrPanic o.outline i
      let left ← getOrPanic o.outline (n * 2 - i - 1)
      pure (wireMiddle ramp right left)
    let left ← (List.range n).mapM fun i => getOrPanic o.outline (n * 2 - i - 1)
    let right := o.outline.take n
    let wire := createWire ramp.wire_diameter n s
    let upper := ramp.wire_distance_y *ᶠ fHalf
    let vs ← match ramp.ramp_type with
      | .OneWire => do pure (some [← wire mid o.heights])
      | .TwoWire => do
        pure (some [raiseWire fThree (← wire right o.heights), raiseWire fThree (← wire left o.heights)])
      | .ThreeWireLeft => do
        pure (some [raiseWire fThree (← wire right o.heights), raiseWire fThree (← wire left o.heights),
          raiseWire upper (← wire left o.heights)])
      | .ThreeWireRight => do
        pure (some [raiseWire fThree (← wire right o.heights), raiseWire fThree (← wire left o.heights),
          raiseWire upper (← wire right o.heights)])
      | .FourWire => do
        pure (some [raiseWire fThree (← wire right o.heights), raiseWire fThree (← wire left o.heights),
          raiseWire upper (← wire right o.heights), raiseWire upper (← wire left o.heights)])
      | .Flat => pure none
    match vs with
    | none => pure none
    | some wires =>
      let tris := (List.range wires.length).flatMap fun w =>
        (wireTris n s).map fun t => (t.1 + w * (n * s), t.2.1 + w * (n * s), t.2.2 + w * (n * s))
      if wires.flatten.isEmpty || tris.isEmpty then pure none else pure (some ⟨wires.flatten, tris⟩)

/-- `build_ramp_mesh`, /repo/src/vpx/mesh/ramps.rs:825-852 -/
def buildRampMesh (fuel : Nat) (ramp : Ramp) (dims : TableDims) (detailLevel : UInt32)
    (opacityActive : Bool) : Res (Option GenMesh) := do
  if (ramp.width_bottom ==ᶠ 0) && (ramp.width_top ==ᶠ 0) then pure none
  else do
    let vv ← getRgVertex3D fuel ramp.drag_points (detailLevelToAccuracy fTen)
    if vv.length < 2 then pure none
    else if isHabitrail ramp then buildWireRampMesh ramp vv detailLevel opacityActive
    else buildFlatRampMesh ramp vv dims

/-- one segment, /repo/src/vpx/mesh/mod.rs:925-969: its distance from the point and the foot of the
perpendicular, if the segment is not too short -/
def segmentFoot (v1 v2 : RenderVertex3D) (px py : F32) : Option (F32 × Vec2) :=
  let a := v1.y -ᶠ v2.y
  let b := v2.x -ᶠ v1.x
  let c := (a *ᶠ v1.x +ᶠ b *ᶠ v1.y).neg
  let denom := sqrt (a *ᶠ a +ᶠ b *ᶠ b)
  if denom <ᶠ f1em12 then none
  else
    let dist := (a *ᶠ px +ᶠ b *ᶠ py +ᶠ c).abs /ᶠ denom
    let d := b.neg
    let f := (d *ᶠ px +ᶠ a *ᶠ py).neg
    let det := a *ᶠ a -ᶠ b *ᶠ d
    let invDet := if det ==ᶠ 0 then 0 else f32One /ᶠ det
    some (dist, ⟨(b *ᶠ f -ᶠ a *ᶠ c) *ᶠ invDet, (c *ᶠ d -ᶠ a *ᶠ f) *ᶠ invDet⟩)

/-- the foot lies on the segment, with a tolerance, /repo/src/vpx/mesh/mod.rs:956-959 -/
def onSegmentBox (v1 v2 : RenderVertex3D) (p : Vec2) : Bool :=
  ((fmin v1.x v2.x -ᶠ f0p1) ≤ᶠ p.x) && (p.x ≤ᶠ (fmax v1.x v2.x +ᶠ f0p1)) &&
    ((fmin v1.y v2.y -ᶠ f0p1) ≤ᶠ p.y) && (p.y ≤ᶠ (fmax v1.y v2.y +ᶠ f0p1))

/-- one step of the loop over the segments, /repo/src/vpx/mesh/mod.rs:925-969; the state is the least
distance so far, and the foot with the number of its segment -/
def footStep (vv : List RenderVertex3D) (x y : F32) (s : F32 × Option (Vec2 × Nat)) (i : Nat) :
    Res (F32 × Option (Vec2 × Nat)) := do
  let v1 ← getOrPanic vv i
  let v2 ← getOrPanic vv (i + 1)
  match segmentFoot v1 v2 x y with
  | none => pure s
  | some (dist, foot) =>
    if (dist <ᶠ s.1) && onSegmentBox v1 v2 foot then pure (dist, some (foot, i)) else pure s

/-- `closest_point_on_polyline`, /repo/src/vpx/mesh/mod.rs:908-972 -/
def closestPointOnPolyline (vv : List RenderVertex3D) (px py : F32) : Res (Option (Vec2 × Nat)) := do
  if vv.length < 2 then pure none
  else do
    let r ← (List.range (vv.length - 1)).foldlM (footStep vv px py) (fMax, none)
    pure r.2

/-- `get_ramp_surface_height`, /repo/src/vpx/mesh/ramps.rs:771-817 -/
def getRampSurfaceHeight (fuel : Nat) (ramp : Ramp) (x y : F32) : Res F32 := do
  let vv ← getRgVertex3D fuel ramp.drag_points (detailLevelToAccuracy fTen)
  if vv.length < 2 then pure 0
  else do
    match ← closestPointOnPolyline vv x y with
    | none => pure 0
    | some (out, seg) => do
      let (total, start) ← (List.range' 1 (vv.length - 1)).foldlM
        (fun (s : F32 × F32) i2 => do
          let q ← getOrPanic vv i2
          let p ← getOrPanic vv (i2 - 1)
          let len := planeLength q p
          pure (s.1 +ᶠ len, if i2 ≤ seg then s.2 +ᶠ len else s.2)) (0, 0)
      let p ← getOrPanic vv seg
      let dx := out.x -ᶠ p.x
      let dy := out.y -ᶠ p.y
      let start := start +ᶠ sqrt (dx *ᶠ dx +ᶠ dy *ᶠ dy)
      if 0 <ᶠ total then
        pure (p.z +ᶠ (start /ᶠ total) *ᶠ (ramp.height_top -ᶠ ramp.height_bottom) +ᶠ ramp.height_bottom)
      else pure ramp.height_bottom

end
end Vpin
