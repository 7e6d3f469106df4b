import Verif.Model.TableMesh
/-
The flat meshes drawn by control points: flashers, /repo/src/vpx/mesh/flashers.rs, and the inserts of lights,
/repo/src/vpx/mesh/lights/mod.rs:77-193.
-/
namespace Vpin

section
variable {α : Type} [Ops α]
open Ops

/-- the matrix of `apply_rotation`, /repo/src/vpx/mesh/flashers.rs:46-62, from three angles in radians -/
def flasherMatrix (radX radY radZ : α) : Mat3 α :=
  let (cosX, sinX) := (cos radX, sin radX)
  let (cosY, sinY) := (cos radY, sin radY)
  let (cosZ, sinZ) := (cos radZ, sin radZ)
  ⟨⟨mul cosZ cosY, sub (mul (mul cosZ sinY) sinX) (mul sinZ cosX), add (mul (mul cosZ sinY) cosX) (mul sinZ sinX)⟩,
   ⟨mul sinZ cosY, add (mul (mul sinZ sinY) sinX) (mul cosZ cosX), sub (mul (mul sinZ sinY) cosX) (mul cosZ sinX)⟩,
   ⟨neg sinY, mul cosY sinX, mul cosY cosX⟩⟩

/-- a point of a flasher turned about the centre, /repo/src/vpx/mesh/flashers.rs:66-73 -/
def flasherPoint (m : Mat3 α) (cx cy x y : α) : V3 α := m.multiplyVector ⟨sub x cx, sub y cy, zero⟩

end

section
variable [Arith]
open Arith

/-- `apply_rotation`, /repo/src/vpx/mesh/flashers.rs:20-86 -/
def applyFlasherRotation (rotX rotY rotZ cx cy : F32) (v : Vertex) : Vertex :=
  if (rotX ==ᶠ 0) && (rotY ==ᶠ 0) && (rotZ ==ᶠ 0) then { v with x := v.x -ᶠ cx, y := v.y -ᶠ cy, z := 0 }
  else
    let rad a := a *ᶠ fPi /ᶠ f180
    let m := flasherMatrix (rad rotX) (rad rotY) (rad rotZ)
    let p := flasherPoint m cx cy v.x v.y
    let n := m.multiplyVector v.normal
    ⟨p.x, p.y, p.z, n.x, n.y, n.z, v.tu, v.tv⟩

/-- the bounds of a flasher, /repo/src/vpx/mesh/flashers.rs:115-134: least x, least y, greatest x, greatest y -/
def flasherBounds (vs : List RenderVertex2D) : F32 × F32 × F32 × F32 :=
  vs.foldl (fun (minx, miny, maxx, maxy) v =>
    (if v.x <ᶠ minx then v.x else minx, if v.y <ᶠ miny then v.y else miny,
      if maxx <ᶠ v.x then v.x else maxx, if maxy <ᶠ v.y then v.y else maxy)) (fMax, fMax, fMin, fMin)

/-- `build_flasher_mesh`, /repo/src/vpx/mesh/flashers.rs:95-215. `fuel` bounds the depth of the curve subdivision. -/
def buildFlasherMesh (fuel : Nat) (f : Flasher) (dims : TableDims) : Res (Option (RawMesh × Vec3)) := do
  if f.drag_points.length < 3 then pure none
  else do
    let vs ← getRgVertex2D fuel f.drag_points (detailLevelToAccuracy fTen) true
    if vs.length < 3 then pure none
    else do
      let (minx, miny, maxx, maxy) := flasherBounds vs
      let (uMinx, uMiny, uMaxx, uMaxy) := if f.image_alignment = .World then
        (dims.left, dims.top, dims.right, dims.bottom) else (minx, miny, maxx, maxy)
      let inv a := if f1em6 <ᶠ F32.abs a then f32One /ᶠ a else f32One
      let (invW, invH) := (inv (uMaxx -ᶠ uMinx), inv (uMaxy -ᶠ uMiny))
      let vertices := vs.map fun v =>
        (⟨v.x, v.y, 0, 0, 0, f32One, (v.x -ᶠ uMinx) *ᶠ invW, (v.y -ᶠ uMiny) *ᶠ invH⟩ : Vertex)
      let tris ← polygonToTriangles vs
      if tris.isEmpty then pure none
      else
        let cx := (minx +ᶠ maxx) *ᶠ fHalf
        let cy := (miny +ᶠ maxy) *ᶠ fHalf
        pure (some (⟨vertices.map (applyFlasherRotation f.rot_x f.rot_y f.rot_z cx cy), tris.map Tri.face⟩,
          ⟨cx, cy, f.height⟩))

/-- the bounds of an insert, /repo/src/vpx/mesh/lights/mod.rs:110-121: least x, least y, greatest x, greatest y -/
def insertBounds (vs : List RenderVertex2D) : F32 × F32 × F32 × F32 :=
  vs.foldl (fun (minx, miny, maxx, maxy) v => (fmin minx v.x, fmin miny v.y, fmax maxx v.x, fmax maxy v.y))
    (fMax, fMax, fMin, fMin)

/-- half over the greatest distance from the centre of the light, /repo/src/vpx/mesh/lights/mod.rs:143-152 -/
def insertInvMaxDist (center : Vertex2D) (vs : List RenderVertex2D) : F32 :=
  let maxDist := vs.foldl (fun acc v =>
    let dx := v.x -ᶠ center.x
    let dy := v.y -ᶠ center.y
    fmax acc (dx *ᶠ dx +ᶠ dy *ᶠ dy)) 0
  if (0 : F32) <ᶠ maxDist then fHalf /ᶠ sqrt maxDist else 0

/-- the texture coordinates of an insert, /repo/src/vpx/mesh/lights/mod.rs:127-138, 158-166 -/
def insertUv (l : Light) (dims : TableDims) (vs : List RenderVertex2D) (v : RenderVertex2D) : F32 × F32 :=
  if !l.image.isEmpty then
    let inv w := if f1em6 <ᶠ F32.abs w then f32One /ᶠ w else 0
    (v.x *ᶠ inv (dims.right -ᶠ dims.left), v.y *ᶠ inv (dims.bottom -ᶠ dims.top))
  else
    let k := insertInvMaxDist l.center vs
    (fHalf +ᶠ (v.x -ᶠ l.center.x) *ᶠ k, fHalf +ᶠ (v.y -ᶠ l.center.y) *ᶠ k)

/-- `build_light_insert_mesh`, /repo/src/vpx/mesh/lights/mod.rs:92-193. `fuel` bounds the depth of the curve
subdivision. -/
def buildLightInsertMesh (fuel : Nat) (l : Light) (dims : TableDims) : Res (Option (RawMesh × Vec3)) := do
  if l.is_backglass || decide (l.drag_points.length < 3) then pure none
  else do
    let vs ← getRgVertex2D fuel l.drag_points (detailLevelToAccuracy fTen) true
    if vs.length < 3 then pure none
    else do
      let (minx, miny, maxx, maxy) := insertBounds vs
      let cx := (minx +ᶠ maxx) *ᶠ fHalf
      let cy := (miny +ᶠ maxy) *ᶠ fHalf
      let vertices := vs.map fun v =>
        let uv := insertUv l dims vs v
        (⟨v.x -ᶠ cx, v.y -ᶠ cy, 0, 0, 0, f32One, uv.1, uv.2⟩ : Vertex)
      let tris ← polygonToTriangles vs
      if tris.isEmpty then pure none
      else pure (some (⟨vertices, tris.map Tri.face⟩, ⟨cx, cy, 0⟩))

end
end Vpin
