import Verif.Model.WallMesh
import Verif.Model.Items.Rubber
/-
Meshes of rubbers, /repo/src/vpx/mesh/rubbers.rs.
-/
namespace Vpin
open Arith

/-- `thickness as f32`, /repo/src/vpx/mesh/rubbers.rs:151 -/
def i32ToF32 (i : Int32) : F32 :=
  if i.toInt < 0 then (f32OfFrac i.toInt.natAbs 1).neg else f32OfFrac i.toInt.natAbs 1

/-- the two faces of cell `j` of ring `i`, /repo/src/vpx/mesh/rubbers.rs:217-248 -/
def rubberCell (numRings numSegments i j : Nat) : List Tri :=
  let q0 := i * numSegments + j
  let q1 := if j ≠ numSegments - 1 then i * numSegments + j + 1 else i * numSegments
  let q2 := if i ≠ numRings - 1 then (i + 1) * numSegments + j else j
  let q3 :=
    if i ≠ numRings - 1 then
      (if j ≠ numSegments - 1 then (i + 1) * numSegments + j + 1 else (i + 1) * numSegments)
    else (if j ≠ numSegments - 1 then j + 1 else 0)
  [(q0, q1, q2), (q3, q2, q1)]

section
variable [Arith]

/-- a face normal is added to a vertex, /repo/src/vpx/mesh/mod.rs:136-144 -/
def Vertex.addNormal (n : Vec3) (v : Vertex) : Vertex :=
  { v with nx := v.nx +ᶠ n.x, ny := v.ny +ᶠ n.y, nz := v.nz +ᶠ n.z }

/-- the contribution of one face, /repo/src/vpx/mesh/mod.rs:108-145 -/
def accumulateNormal (vs : List Vertex) (t : Tri) : List Vertex :=
  match vs[t.1]?, vs[t.2.1]?, vs[t.2.2]? with
  | some v0, some v1, some v2 =>
    let e1 : Vec3 := ⟨v1.x -ᶠ v0.x, v1.y -ᶠ v0.y, v1.z -ᶠ v0.z⟩
    let e2 : Vec3 := ⟨v2.x -ᶠ v0.x, v2.y -ᶠ v0.y, v2.z -ᶠ v0.z⟩
    let n := (Vec3.cross e1 e2).normalize
    ((vs.modify t.1 (Vertex.addNormal n)).modify t.2.1 (Vertex.addNormal n)).modify t.2.2
      (Vertex.addNormal n)
  | _, _, _ => vs

/-- the sum is scaled to length one, /repo/src/vpx/mesh/mod.rs:148-155 -/
def Vertex.normalizeNormal (v : Vertex) : Vertex :=
  let len := sqrt (v.nx *ᶠ v.nx +ᶠ v.ny *ᶠ v.ny +ᶠ v.nz *ᶠ v.nz)
  if 0 <ᶠ len then { v with nx := v.nx /ᶠ len, ny := v.ny /ᶠ len, nz := v.nz /ᶠ len } else v

/-- `compute_normals`, /repo/src/vpx/mesh/mod.rs:99-156 -/
def computeNormals (vs : List Vertex) (tris : List Tri) : List Vertex :=
  let vs := vs.map fun v => { v with nx := 0, ny := 0, nz := 0 }
  let vs := tris.foldl accumulateNormal vs
  vs.map Vertex.normalizeNormal

/-- `get_spline_vertex`, /repo/src/vpx/mesh/rubbers.rs:20-110. Only the middle points are modelled: the
outline, the first result, is dropped by the caller (line 122), and computing it does not panic. -/
def rubberMiddlePoints (fuel : Nat) (dps : List DragPoint) (accuracy : F32) : Res (List Vec2) := do
  let vvertex ← getRgVertex2D fuel dps accuracy true
  match vvertex with
  | [] => pure []
  | v :: rest => pure ((v :: rest).map (fun p => Vec2.mk p.x p.y) ++ [⟨v.x, v.y⟩])

/-- one ring of vertices, /repo/src/vpx/mesh/rubbers.rs:154-212; gives the binormal for the next ring -/
def rubberRing (mp : List Vec2) (numRings numSegments : Nat) (height thickness : F32)
    (prevBinorm : Vec3) (i : Nat) : Res (List Vertex × Vec3) := do
  let i2 := if i = numRings - 1 then 0 else i + 1
  let p2 ← getOrPanic mp i2
  let p ← getOrPanic mp i
  let tangent : Vec3 := ⟨p2.x -ᶠ p.x, p2.y -ᶠ p.y, 0⟩
  let (normal, binorm) :=
    if i = 0 then
      let up : Vec3 := ⟨p2.x +ᶠ p.x, p2.y +ᶠ p.y, height *ᶠ fTwo⟩
      let normal : Vec3 := ⟨tangent.y *ᶠ up.z, tangent.x.neg *ᶠ up.z,
        tangent.x *ᶠ up.y -ᶠ tangent.y *ᶠ up.x⟩
      (normal, (⟨tangent.y *ᶠ normal.z, tangent.x.neg *ᶠ normal.z,
        tangent.x *ᶠ normal.y -ᶠ tangent.y *ᶠ normal.x⟩ : Vec3))
    else
      let normal := Vec3.cross prevBinorm tangent
      (normal, Vec3.cross tangent normal)
  let binorm := binorm.normalize
  let normal := normal.normalize
  let invNr := f32One /ᶠ ofNat numRings
  let invNs := f32One /ᶠ ofNat numSegments
  let u := ofNat i *ᶠ invNr
  let ring := (List.range numSegments).map fun j =>
    let v := (ofNat j +ᶠ u) *ᶠ invNs
    let angle := ofNat j *ᶠ f360 *ᶠ invNs
    let tmp := (getRotatedAxis angle tangent normal).scale (thickness *ᶠ fHalf)
    Vertex.mk (p.x +ᶠ tmp.x) (p.y +ᶠ tmp.y) (height +ᶠ tmp.z) 0 0 0 u v
  pure (ring, binorm)

/-- `generate_mesh`, /repo/src/vpx/mesh/rubbers.rs:114-256. Without middle points the subtraction in line
124 underflows: a panic (without overflow checks the following allocation panics). -/
def rubberGenerate (fuel : Nat) (r : Rubber) (detailLevel : UInt32) : Res (Option GenMesh) := do
  let mp ← rubberMiddlePoints fuel r.drag_points (detailLevelToAccuracy fTen)
  if mp.length = 0 then .error .panic
  else
    let numRings := mp.length - 1
    if numRings < 1 then pure none
    else do
      let numSegments := ringSegments detailLevel r.static_rendering
      let height := r.hit_height.getD r.height
      let thickness := i32ToF32 r.thickness
      let rings ← (List.range numRings).foldlM
        (fun (s : List Vertex × Vec3) i => do
          let (ring, binorm) ← rubberRing mp numRings numSegments height thickness s.2 i
          pure (s.1 ++ ring, binorm)) ([], ⟨0, 0, 0⟩)
      let tris := (List.range numRings).flatMap fun i =>
        (List.range numSegments).flatMap (rubberCell numRings numSegments i)
      pure (some ⟨computeNormals rings.1 tris, tris⟩)

/-- bounds of the vertices, /repo/src/vpx/mesh/rubbers.rs:272-291: the middle of the box -/
def rubberMiddle (vs : List Vertex) : Vec3 :=
  let b := vs.foldl (fun (b : (F32 × F32) × (F32 × F32) × (F32 × F32)) v =>
      ((fmin b.1.1 v.x, fmax b.1.2 v.x), (fmin b.2.1.1 v.y, fmax b.2.1.2 v.y),
        (fmin b.2.2.1 v.z, fmax b.2.2.2 v.z)))
    ((fMax, fMin), (fMax, fMin), (fMax, fMin))
  ⟨(b.1.2 +ᶠ b.1.1) *ᶠ fHalf, (b.2.1.2 +ᶠ b.2.1.1) *ᶠ fHalf, (b.2.2.2 +ᶠ b.2.2.1) *ᶠ fHalf⟩

/-- `apply_rotation`, /repo/src/vpx/mesh/rubbers.rs:265-363 -/
def applyRotation (vs : List Vertex) (rotX rotY rotZ height : F32) : List Vertex × Vec3 :=
  let mid := rubberMiddle vs
  let center : Vec3 := ⟨mid.x, mid.y, height⟩
  if (rotX ==ᶠ 0) && (rotY ==ᶠ 0) && (rotZ ==ᶠ 0) then
    (vs.map fun v => { v with x := v.x -ᶠ mid.x, y := v.y -ᶠ mid.y, z := v.z -ᶠ mid.z }, center)
  else
    let radX := rotX *ᶠ fPi /ᶠ f180
    let radY := rotY *ᶠ fPi /ᶠ f180
    let radZ := rotZ *ᶠ fPi /ᶠ f180
    let cosX := cos radX
    let sinX := sin radX
    let cosY := cos radY
    let sinY := sin radY
    let cosZ := cos radZ
    let sinZ := sin radZ
    let m00 := cosZ *ᶠ cosY
    let m01 := cosZ *ᶠ sinY *ᶠ sinX -ᶠ sinZ *ᶠ cosX
    let m02 := cosZ *ᶠ sinY *ᶠ cosX +ᶠ sinZ *ᶠ sinX
    let m10 := sinZ *ᶠ cosY
    let m11 := sinZ *ᶠ sinY *ᶠ sinX +ᶠ cosZ *ᶠ cosX
    let m12 := sinZ *ᶠ sinY *ᶠ cosX -ᶠ cosZ *ᶠ sinX
    let m20 := sinY.neg
    let m21 := cosY *ᶠ sinX
    let m22 := cosY *ᶠ cosX
    (vs.map fun v =>
      let x := v.x -ᶠ mid.x
      let y := v.y -ᶠ mid.y
      let z := v.z -ᶠ mid.z
      { v with
        x := m00 *ᶠ x +ᶠ m01 *ᶠ y +ᶠ m02 *ᶠ z
        y := m10 *ᶠ x +ᶠ m11 *ᶠ y +ᶠ m12 *ᶠ z
        z := m20 *ᶠ x +ᶠ m21 *ᶠ y +ᶠ m22 *ᶠ z
        nx := m00 *ᶠ v.nx +ᶠ m01 *ᶠ v.ny +ᶠ m02 *ᶠ v.nz
        ny := m10 *ᶠ v.nx +ᶠ m11 *ᶠ v.ny +ᶠ m12 *ᶠ v.nz
        nz := m20 *ᶠ v.nx +ᶠ m21 *ᶠ v.ny +ᶠ m22 *ᶠ v.nz }, center)

/-- `build_rubber_mesh`, /repo/src/vpx/mesh/rubbers.rs:373-407. The index arithmetic of Rust is exact for meshes of less
than 2^32 vertices -/
def buildRubberMesh (fuel : Nat) (r : Rubber) (detailLevel : UInt32) :
    Res (Option (GenMesh × Vec3)) := do
  if r.thickness = 0 then pure none
  else if r.drag_points.length < 2 then pure none
  else do
    match ← rubberGenerate fuel r detailLevel with
    | none => pure none
    | some m =>
      let (vs, center) := applyRotation m.vertices r.rot_x r.rot_y r.rot_z r.height
      pure (some (⟨vs, m.tris⟩, center))

end
end Vpin
