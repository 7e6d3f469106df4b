import Verif.Model.Polygon
import Verif.Model.Curve
import Verif.Model.Mesh
import Verif.Model.Items.Wall
/-
Meshes of walls, /repo/src/vpx/mesh/walls.rs.

Vertex numbers are natural numbers; the code computes them as `u32` (and `usize`), which is the same
for meshes of fewer than 2^32 vertices. The code collects a flat list of numbers and cuts it into
triples with `chunks_exact(3)`; here it is a list of triples from the start.
-/
namespace Vpin
open Arith

/-- a generated mesh: the code wraps it as `(Vec<VertexWrapper>, Vec<VpxFace>)`, see `GenMesh.mesh` (used in
/repo/src/vpx/mesh/walls.rs:26-104) -/
structure GenMesh where
  vertices : List Vertex
  tris : List Tri
  deriving DecidableEq, Repr

/-- `Vertex3dNoTex2::to_vpx_bytes`, /repo/src/vpx/model.rs:20-30 -/
def Vertex.toVpxBytes (v : Vertex) : Bytes :=
  le32 v.x ++ le32 v.y ++ le32 v.z ++ le32 v.nx ++ le32 v.ny ++ le32 v.nz ++ le32 v.tu ++ le32 v.tv

/-- The wrapping at the end of every generator, for example /repo/src/vpx/mesh/walls.rs:163-171:
every vertex with its encoding, every triple as a face. -/
def GenMesh.mesh (m : GenMesh) : Mesh where
  vertices := m.vertices.map fun v => ⟨v.toVpxBytes, v⟩
  faces := m.tris.map fun t => ⟨t.1, t.2.1, t.2.2⟩

/-- `TableDimensions`, /repo/src/vpx/mod.rs:1151-1156 -/
structure TableDims where
  left : F32
  top : F32
  right : F32
  bottom : F32
  deriving DecidableEq, Repr

/-- the points that stand for a drag point with its own texture coordinate, as pairs of the number of
the drag point and the number of the point; /repo/src/vpx/mesh/walls.rs:203-211 -/
def texControls (dps : List DragPoint) : List RenderVertex2D → (i icontrol : Nat) → List (Nat × Nat)
  | [], _, _ => []
  | rv :: rest, i, icontrol =>
    if rv.control_point then
      (if (dps[icontrol]?.map fun d => !d.has_auto_texture) = some true then [(icontrol, i)] else [])
        ++ texControls dps rest (i + 1) (icontrol + 1)
    else texControls dps rest (i + 1) icontrol

/-- one mesh after the other, with the vertex numbers of the second one shifted;
/repo/src/vpx/mesh/walls.rs:140-146 and 154-160 -/
def GenMesh.join (a b : GenMesh) : GenMesh :=
  ⟨a.vertices ++ b.vertices,
    a.tris ++ b.tris.map fun t =>
      (t.1 + a.vertices.length, t.2.1 + a.vertices.length, t.2.2 + a.vertices.length)⟩

section
variable [Arith]

/-- the length of the edge from point `l` to the next one, both modulo the number of points;
/repo/src/vpx/mesh/walls.rs:245-249 and 262-266. Panics without points (remainder by zero). -/
def edgeLen (points : List RenderVertex2D) (l : Nat) : Res F32 :=
  if points.length = 0 then .error .panic
  else do
    let p1 ← getOrPanic points (l % points.length)
    let p2 ← getOrPanic points ((l + 1) % points.length)
    let dx := p2.x -ᶠ p1.x
    let dy := p2.y -ᶠ p1.y
    pure (sqrt (dx *ᶠ dx +ᶠ dy *ᶠ dy))

/-- the sum of the edge lengths of a section, /repo/src/vpx/mesh/walls.rs:242-250 -/
def sectionLength (points : List RenderVertex2D) (startRender endRender : Nat) : Res F32 :=
  (List.range' startRender (endRender - startRender)).foldlM
    (fun total l => do pure (total +ᶠ (← edgeLen points l))) 0

/-- the coordinates of one section, /repo/src/vpx/mesh/walls.rs:252-267. The assignment is to a number
below the number of points, so it does not panic. -/
def assignSection (points : List RenderVertex2D) (startTex deltaCoord totalLength : F32)
    (startRender endRender : Nat) (coords : List F32) : Res (List F32) := do
  let r ← (List.range' startRender (endRender - startRender)).foldlM
    (fun (s : List F32 × F32) l => do
      let frac := if 0 <ᶠ totalLength then s.2 /ᶠ totalLength else 0
      pure (s.1.set (l % points.length) (startTex +ᶠ frac *ᶠ deltaCoord),
        s.2 +ᶠ (← edgeLen points l)))
    (coords, 0)
  pure r.1

/-- the loop body, /repo/src/vpx/mesh/walls.rs:224-268: the section from one mark to the next -/
def texSection (points : List RenderVertex2D) (dps : List DragPoint) (noCoords : Bool)
    (marks : List (Nat × Nat)) (coords : List F32) (i : Nat) : Res (List F32) := do
  let a ← getOrPanic marks i
  let b ← getOrPanic marks (i + 1)
  if points.length = 0 then .error .panic
  else
    let startRender := a.2 % points.length
    let endRender := b.2 % points.length
    let tex ← (if noCoords then .ok (0, f32One)
      else if dps.length = 0 then .error .panic
      else do
        let p ← getOrPanic dps (a.1 % dps.length)
        let q ← getOrPanic dps (b.1 % dps.length)
        pure (p.tex_coord, q.tex_coord))
    let deltaCoord := tex.2 -ᶠ tex.1
    let endRender := if endRender ≤ startRender then endRender + points.length else endRender
    let totalLength ← sectionLength points startRender endRender
    assignSection points tex.1 deltaCoord totalLength startRender endRender coords

/-- `compute_side_texture_coords`, /repo/src/vpx/mesh/walls.rs:190-271 -/
def sideTextureCoords (points : List RenderVertex2D) (dps : List DragPoint) : Res (List F32) := do
  let manual := texControls dps points 0 0
  let noCoords := manual.isEmpty
  let start := if noCoords then [(0, 0)] else manual
  let first ← getOrPanic start 0
  let marks := start ++ [(first.1 + dps.length, first.2 + points.length)]
  (List.range (marks.length - 1)).foldlM (texSection points dps noCoords marks)
    (List.replicate points.length 0)

/-- the normal of the edge from one point to the next, /repo/src/vpx/mesh/walls.rs:284-295 -/
def edgeNormal (p q : RenderVertex2D) : Vec2 :=
  let dx := p.x -ᶠ q.x
  let dy := p.y -ᶠ q.y
  let len := sqrt (dx *ᶠ dx +ᶠ dy *ᶠ dy)
  if len ==ᶠ 0 then ⟨0, 0⟩ else ⟨dy /ᶠ len, dx /ᶠ len⟩

/-- all edge normals, /repo/src/vpx/mesh/walls.rs:281-296 -/
def edgeNormals (points : List RenderVertex2D) : Res (List Vec2) :=
  (List.range points.length).mapM fun i => do
    let p ← getOrPanic points i
    let q ← getOrPanic points (if i + 1 < points.length then i + 1 else 0)
    pure (edgeNormal p q)

/-- the four vertices of side `i`, /repo/src/vpx/mesh/walls.rs:316-389 -/
def sideQuad (wall : Wall) (points : List RenderVertex2D) (normals : List Vec2)
    (coords : Option (List F32)) (i : Nat) : Res (List Vertex) := do
  let count := points.length
  let next := if i + 1 < count then i + 1 else 0
  let prev := if i = 0 then count - 1 else i - 1
  let pv1 ← getOrPanic points i
  let pv2 ← getOrPanic points next
  let nPrev ← getOrPanic normals prev
  let nHere ← getOrPanic normals i
  let nNext ← getOrPanic normals next
  let vnormal0 := (if pv1.smooth then Vec2.mk (nPrev.x +ᶠ nHere.x) (nPrev.y +ᶠ nHere.y) else nHere).normalize
  let vnormal1 := (if pv2.smooth then Vec2.mk (nHere.x +ᶠ nNext.x) (nHere.y +ᶠ nNext.y) else nHere).normalize
  let tex ← (match coords with
    | none => .ok (0, 0, 0)
    | some cs => do
      let c1 ← getOrPanic cs i
      let c2 ← getOrPanic cs next
      pure (c1, c2, f32One) : Res (F32 × F32 × F32))
  let (tu1, tu2, tvBottom) := tex
  let bottom := wall.height_bottom
  let top := wall.height_top
  pure
    [⟨pv1.x, pv1.y, bottom, vnormal0.x, vnormal0.y.neg, 0, tu1, tvBottom⟩,
     ⟨pv1.x, pv1.y, top, vnormal0.x, vnormal0.y.neg, 0, tu1, 0⟩,
     ⟨pv2.x, pv2.y, top, vnormal1.x, vnormal1.y.neg, 0, tu2, 0⟩,
     ⟨pv2.x, pv2.y, bottom, vnormal1.x, vnormal1.y.neg, 0, tu2, tvBottom⟩]

/-- `build_side_mesh`, /repo/src/vpx/mesh/walls.rs:273-404 -/
def buildSideMesh (wall : Wall) (points : List RenderVertex2D) (coords : Option (List F32)) :
    Res GenMesh := do
  let normals ← edgeNormals points
  let quads ← (List.range points.length).mapM (sideQuad wall points normals coords)
  let tris := (List.range points.length).flatMap fun i =>
    [(i * 4, i * 4 + 1, i * 4 + 2), (i * 4, i * 4 + 2, i * 4 + 3)]
  pure ⟨quads.flatten, tris⟩

/-- `bounds_xy`, /repo/src/vpx/mesh/walls.rs:448-460: least and greatest x, least and greatest y -/
def boundsXy (points : List RenderVertex2D) : F32 × F32 × F32 × F32 :=
  points.foldl (fun (a, b, c, d) p => (fmin a p.x, fmax b p.x, fmin c p.y, fmax d p.y))
    (fInf, fNegInf, fInf, fNegInf)

/-- `build_top_mesh_item_space`, /repo/src/vpx/mesh/walls.rs:408-446 -/
def buildTopMeshItemSpace (points : List RenderVertex2D) (wall : Wall) : Res GenMesh := do
  let triangles ← triangulatePolygon (points.map fun v => (v.x, v.y))
  let (minX, maxX, minY, maxY) := boundsXy points
  let invW := if maxX ==ᶠ minX then 0 else f32One /ᶠ (maxX -ᶠ minX)
  let invH := if maxY ==ᶠ minY then 0 else f32One /ᶠ (maxY -ᶠ minY)
  pure ⟨points.map fun p => ⟨p.x, p.y, wall.height_top, 0, 0, f32One, (p.x -ᶠ minX) *ᶠ invW,
    (p.y -ᶠ minY) *ᶠ invH⟩, triangles⟩

/-- `build_top_mesh`, /repo/src/vpx/mesh/walls.rs:464-507 -/
def buildTopMesh (points : List RenderVertex2D) (wall : Wall) (dims : TableDims) : Res GenMesh := do
  let triangles ← triangulatePolygon (points.map fun v => (v.x, v.y))
  let width := dims.right -ᶠ dims.left
  let height := dims.bottom -ᶠ dims.top
  let invW := if width ==ᶠ 0 then 0 else f32One /ᶠ width
  let invH := if height ==ᶠ 0 then 0 else f32One /ᶠ height
  pure ⟨points.map fun p => ⟨p.x, p.y, wall.height_top, 0, 0, f32One, (p.x -ᶠ dims.left) *ᶠ invW,
    (p.y -ᶠ dims.top) *ᶠ invH⟩, triangles⟩

/-- `build_wall_mesh`, /repo/src/vpx/mesh/walls.rs:106-174, with `build_render_vertices` (179-182).
`fuel` bounds the depth of the curve subdivision. -/
def buildWallMesh (fuel : Nat) (wall : Wall) : Res (Option GenMesh) := do
  let points ← getRgVertex2D fuel wall.drag_points fFour true
  if points.length < 3 then pure none
  else do
    let coords ← (if wall.side_image.isEmpty then .ok none
      else do pure (some (← sideTextureCoords points wall.drag_points)) : Res (Option (List F32)))
    let side ← buildSideMesh wall points coords
    let top ← buildTopMeshItemSpace points wall
    if top.tris.isEmpty then pure none
    else if wall.is_top_bottom_visible && wall.is_side_visible then pure (some (side.join top))
    else if wall.is_top_bottom_visible then pure (some top)
    else if wall.is_side_visible then pure (some side)
    else pure (some (side.join top))

/-- `WallMeshes`, /repo/src/vpx/mesh/walls.rs:15-20 -/
structure WallMeshes where
  top : Option GenMesh
  side : Option GenMesh
  deriving DecidableEq, Repr

/-- `build_wall_meshes`, /repo/src/vpx/mesh/walls.rs:26-104 -/
def buildWallMeshes (fuel : Nat) (wall : Wall) (dims : TableDims) : Res (Option WallMeshes) := do
  let points ← getRgVertex2D fuel wall.drag_points fFour true
  if points.length < 3 then pure none
  else do
    let coords ← (if wall.side_image.isEmpty && wall.image.isEmpty then .ok none
      else do pure (some (← sideTextureCoords points wall.drag_points)) : Res (Option (List F32)))
    let side ← buildSideMesh wall points coords
    let side := if !side.vertices.isEmpty then some side else none
    let top ← buildTopMesh points wall dims
    let top := if !top.tris.isEmpty then some top else none
    if side.isNone && top.isNone then pure none
    else pure (some ⟨top, side⟩)

end
end Vpin
