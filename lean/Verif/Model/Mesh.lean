import Verif.Model.Items.Primitive
import Verif.Model.Color
/-
/repo/src/vpx/gameitem/primitive.rs: the mesh of a primitive.
-/
namespace Vpin

/-- `Vertex3dNoTex2`, /repo/src/vpx/model.rs:8-18 -/
structure Vertex where
  x : F32
  y : F32
  z : F32
  nx : F32
  ny : F32
  nz : F32
  tu : F32
  tv : F32
  deriving DecidableEq, Repr

/-- `VertexWrapper`, /repo/src/vpx/gameitem/primitive.rs:520-535: the bytes in the file and what they say -/
structure VertexWrapper where
  encoded : Bytes
  vertex : Vertex
  deriving DecidableEq, Repr

/-- `VpxFace`, /repo/src/vpx/obj.rs:709-713. `i64`, here without bounds. -/
structure Face where
  i0 : Int
  i1 : Int
  i2 : Int
  deriving DecidableEq, Repr

/-- `VertData`, /repo/src/vpx/gameitem/primitive.rs:1258-1265: a vertex of an animation frame -/
structure FrameVertex where
  x : F32
  y : F32
  z : F32
  nx : F32
  ny : F32
  nz : F32
  deriving DecidableEq, Repr

/-- `ReadMesh`, /repo/src/vpx/gameitem/primitive.rs:537-540 -/
structure Mesh where
  vertices : List VertexWrapper
  faces : List Face
  deriving DecidableEq, Repr

/-- `MAX_VERTICES_FOR_2_BYTE_INDEX`, /repo/src/vpx/gameitem/primitive.rs:24 -/
abbrev maxVertices2 : Nat := 65535

/-- The compression library (flate2). Assumed: decompressing what was compressed gives it back. Compressing
into memory does not fail. (used in /repo/src/vpx/gameitem/primitive.rs:1166-1185) -/
structure Zlib where
  compress : Bytes → Bytes
  decompress : Bytes → Res Bytes
  decompress_compress : ∀ bs, decompress (compress bs) = .ok bs

/-- number `i` of a sequence of 4 byte floats (used in /repo/src/vpx/model.rs:38-49) -/
def f32At (bs : Bytes) (i : Nat) : F32 := ofLe32 ((bs.drop (4 * i)).take 4)

/-- `read_vertex`, /repo/src/vpx/gameitem/primitive.rs:1220-1250; panics if there are not enough bytes -/
def readVertex (bs : Bytes) : Res (VertexWrapper × Bytes) :=
  if bs.length < 32 then .error .panic
  else
    let b := bs.take 32
    .ok (⟨b, ⟨f32At b 0, f32At b 1, f32At b 2, f32At b 3, f32At b 4, f32At b 5, f32At b 6, f32At b 7⟩⟩, bs.drop 32)

/-- `raw_vertices_to_vertices`, /repo/src/vpx/gameitem/primitive.rs:1194-1202 -/
def rawVertices : Nat → Bytes → Res (List VertexWrapper)
  | 0, _ => .ok []
  | n + 1, bs => do
    let (v, rest) ← readVertex bs
    let vs ← rawVertices n rest
    pure (v :: vs)

/-- `read_vertex_index_from_vpx`, /repo/src/vpx/gameitem/primitive.rs:1148-1154 -/
def readIndex (w : Nat) (bs : Bytes) : Res (Int × Bytes) :=
  if w = 2 then
    match bs with
    | a :: b :: rest => .ok ((ofLe16 [a, b]).toNat, rest)
    | _ => .error .panic
  else
    match bs with
    | a :: b :: c :: d :: rest => .ok ((ofLe32 [a, b, c, d]).toNat, rest)
    | _ => .error .panic

/-- the loop of `raw_indices_to_indices`, /repo/src/vpx/gameitem/primitive.rs:1208-1214 -/
def rawFacesLoop (w : Nat) : Nat → Bytes → Res (List Face)
  | 0, _ => .ok []
  | n + 1, bs => do
    let (v1, bs) ← readIndex w bs
    let (v2, bs) ← readIndex w bs
    let (v3, bs) ← readIndex w bs
    let fs ← rawFacesLoop w n bs
    pure (⟨v1, v2, v3⟩ :: fs)

/-- `raw_indices_to_indices`, /repo/src/vpx/gameitem/primitive.rs:1204-1217 -/
def rawFaces (w : Nat) (bs : Bytes) : Res (List Face) := rawFacesLoop w (bs.length / w / 3) bs

/-- the width of an index, /repo/src/vpx/gameitem/primitive.rs:566-571 -/
def indexWidth (vertices : Nat) : Nat := if vertices > maxVertices2 then 4 else 2

/-- `Primitive::read_mesh`, /repo/src/vpx/gameitem/primitive.rs:543-587 -/
def Primitive.readMesh (Z : Zlib) (p : Primitive) : Res (Option Mesh) :=
  match p.compressed_vertices_data with
  | none => .ok none
  | some vdata =>
    match p.compressed_indices_data with
    | none => .error .io
    | some idata => do
      let raw ← Z.decompress vdata
      let ind ← Z.decompress idata
      let numVertices := raw.length / 32
      if numVertices ≠ (p.num_vertices.getD 0).toNat then throw .panic
      let numIndices := if numVertices > maxVertices2 then ind.length / 4 else ind.length / 2
      if numIndices ≠ (p.num_indices.getD 0).toNat then throw .panic
      let vertices ← rawVertices numVertices raw
      let faces ← rawFaces (indexWidth numVertices) ind
      pure (some ⟨vertices, faces⟩)

/-- `write_vertex_index_for_vpx`, /repo/src/vpx/obj.rs:418-428; the conversions from `i64` wrap -/
def writeIndex (w : Nat) (i : Int) : Bytes :=
  if w = 2 then le16 (UInt16.ofNat (i % 65536).toNat) else le32 (UInt32.ofNat (i % 4294967296).toNat)

/-- `vpx_encode_vertices`, /repo/src/vpx/expanded/primitives.rs:887-900: the faces, in the width for this number
of vertices. The same loop is in `read_gltf_and_compress`, lines 837-847. -/
def encodeFaces (vertices : Nat) (fs : List Face) : Bytes :=
  let w := if vertices > maxVertices2 then 4 else 2
  fs.flatMap fun f => writeIndex w f.i0 ++ writeIndex w f.i1 ++ writeIndex w f.i2

/-- `read_animation_vertex_data`, /repo/src/vpx/gameitem/primitive.rs:1297-1312 -/
def readFrameVertex (bs : Bytes) : Res (FrameVertex × Bytes) :=
  if bs.length < 24 then .error .panic
  else .ok (⟨f32At bs 0, f32At bs 1, f32At bs 2, f32At bs 3, f32At bs 4, f32At bs 5⟩, bs.drop 24)

/-- the loop of `read_vpx_animation_frame`, /repo/src/vpx/gameitem/primitive.rs:1290-1293 -/
def readFrameLoop : Nat → Bytes → Res (List FrameVertex)
  | 0, _ => .ok []
  | n + 1, bs => do
    let (v, rest) ← readFrameVertex bs
    let vs ← readFrameLoop n rest
    pure (v :: vs)

/-- `read_vpx_animation_frame`, /repo/src/vpx/gameitem/primitive.rs:1270-1295 -/
def readFrame (Z : Zlib) (frame : Bytes) (len : UInt32) : Res (List FrameVertex) :=
  if frame.length ≠ len.toNat then .error .io
  else do
    let raw ← Z.decompress frame
    readFrameLoop (raw.length / 24) raw

/-- `write_animation_vertex_data`, /repo/src/vpx/gameitem/primitive.rs:1314-1321 -/
def FrameVertex.bytes (v : FrameVertex) : Bytes :=
  le32 v.x ++ le32 v.y ++ le32 v.z ++ le32 v.nx ++ le32 v.ny ++ le32 v.nz

/-- `replace_vertices`, /repo/src/vpx/expanded/primitives.rs:647-668 -/
def replaceVertices (vs : List VertexWrapper) (frame : List FrameVertex) : List VertexWrapper :=
  (vs.zip frame).map fun (w, a) =>
    ⟨List.replicate 32 0, { w.vertex with x := a.x, y := a.y, z := a.z, nx := a.nx, ny := a.ny, nz := a.nz }⟩

/-- `compress_vertices_and_indices` and the mesh part of `read_gameitem_binaries`,
/repo/src/vpx/expanded/primitives.rs:720-727,799-865: the mesh that was read becomes the mesh of the primitive.
Lengths are cut to `u32`. -/
def Primitive.setMesh (Z : Zlib) (p : Primitive) (vertices : Nat) (encoded : Bytes) (faces : List Face) : Primitive :=
  let cv := Z.compress encoded
  let ci := Z.compress (encodeFaces vertices faces)
  { p with
    num_vertices := some (UInt32.ofNat vertices)
    compressed_vertices_len := some (UInt32.ofNat cv.length)
    compressed_vertices_data := some cv
    num_indices := some (UInt32.ofNat (faces.length * 3))
    compressed_indices_len := some (UInt32.ofNat ci.length)
    compressed_indices_data := some ci }

/-- the animation part of `read_gameitem_binaries`, /repo/src/vpx/expanded/primitives.rs:763-779 -/
def Primitive.setFrames (Z : Zlib) (p : Primitive) (frames : List (List FrameVertex)) : Primitive :=
  let cs := frames.map fun f => Z.compress (f.flatMap FrameVertex.bytes)
  { p with
    compressed_animation_vertices_len := some (cs.map fun c => UInt32.ofNat c.length)
    compressed_animation_vertices_data := some cs }

end Vpin
