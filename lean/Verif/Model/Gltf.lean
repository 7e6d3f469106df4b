import Verif.Model.Hex
import Verif.Model.Mesh
/-
/repo/src/vpx/gltf.rs: meshes as glTF, in one file (GLB) or with the data in a second file.

The JSON text is a parameter (`JsonText`). Additions of offsets do not overflow here (they do in the code for
offsets near 2^64, which no file written by it has).
-/
namespace Vpin

/-- `GltfPayload`, /repo/src/vpx/gltf.rs:53-56 -/
structure GltfPayload where
  json : J
  bin : Bytes

/-- a number, or zero for what is no number (used in /repo/src/vpx/gltf.rs:106-282) -/
def nanZero (x : F32) : F32 := if x.isNaN then 0 else x

/-- positions, /repo/src/vpx/gltf.rs:115-121 -/
def gltfPositions (vs : List VertexWrapper) : Bytes :=
  vs.flatMap fun w => le32 w.vertex.x ++ le32 w.vertex.y ++ le32 w.vertex.z

/-- normals, /repo/src/vpx/gltf.rs:124-145 -/
def gltfNormals (vs : List VertexWrapper) : Bytes :=
  vs.flatMap fun w => le32 (nanZero w.vertex.nx) ++ le32 (nanZero w.vertex.ny) ++ le32 (nanZero w.vertex.nz)

/-- texture coordinates, /repo/src/vpx/gltf.rs:149-154 -/
def gltfTexcoords (vs : List VertexWrapper) : Bytes :=
  vs.flatMap fun w => le32 w.vertex.tu ++ le32 w.vertex.tv

/-- the bytes of the normals as they are in the table, /repo/src/vpx/gltf.rs:141-146 -/
def gltfVpxNormals (vs : List VertexWrapper) : List J :=
  vs.map fun w => .str (hexEncode ((w.encoded.drop 12).take 12))

/-- indices, /repo/src/vpx/gltf.rs:157-170; the conversions from `i64` wrap -/
def gltfIndices (wide : Bool) (fs : List Face) : Bytes :=
  let w := if wide then 4 else 2
  fs.flatMap fun f => writeIndex w f.i0 ++ writeIndex w f.i1 ++ writeIndex w f.i2

/-- zeros up to a multiple of four, /repo/src/vpx/gltf.rs:173-176 -/
def pad4 (bs : Bytes) : Bytes := bs ++ List.replicate ((4 - bs.length % 4) % 4) 0

/-- an accessor; the smallest and largest position of the first one, which nothing reads, are left out,
/repo/src/vpx/gltf.rs:106-282 -/
def gltfAccessor (view component count : Nat) (type : String) : J :=
  .obj [(key!"bufferView", .num view), (key!"componentType", .num component), (key!"count", .num count),
    (key!"type", .str type.toList), (key!"byteOffset", .num 0)]

/-- a view of the data, /repo/src/vpx/gltf.rs:106-282 -/
def gltfView (offset length target : Nat) : J :=
  .obj [(key!"buffer", .num 0), (key!"byteOffset", .num offset), (key!"byteLength", .num length),
    (key!"target", .num target)]

/-- `build_gltf_payload`, /repo/src/vpx/gltf.rs:106-282. `vpx_encoded_vertex` is an array of 32 bytes. -/
def buildGltf (name : Str) (m : Mesh) (uri : Option Str) : GltfPayload :=
  let vs := m.vertices
  let positions := gltfPositions vs
  let normals := gltfNormals vs
  let texcoords := gltfTexcoords vs
  let wide := vs.length > 65535
  let indices := gltfIndices wide m.faces
  let bin := pad4 (positions ++ normals ++ texcoords ++ indices)
  let buffers := match uri with
    | some uri => J.arr [.obj [(key!"byteLength", .num bin.length), (key!"uri", .str uri)]]
    | none => J.arr [.obj [(key!"byteLength", .num bin.length)]]
  ⟨.obj [
    (key!"asset", .obj [(key!"version", .str "2.0".toList), (key!"generator", .str "vpin".toList)]),
    (key!"scene", .num 0),
    (key!"scenes", .arr [.obj [(key!"nodes", .arr [.num 0])]]),
    (key!"nodes", .arr [.obj [(key!"mesh", .num 0), (key!"name", .str name)]]),
    (key!"meshes", .arr [.obj [
      (key!"name", .str name),
      (key!"primitives", .arr [.obj [
        (key!"attributes", .obj [(key!"POSITION", .num 0), (key!"NORMAL", .num 1), (key!"TEXCOORD_0", .num 2)]),
        (key!"indices", .num 3),
        (key!"mode", .num 4),
        (key!"extras", .obj [(key!"vpx_normals", .arr (gltfVpxNormals vs))])]])]]),
    (key!"accessors", .arr [
      gltfAccessor 0 5126 vs.length "VEC3",
      gltfAccessor 1 5126 vs.length "VEC3",
      gltfAccessor 2 5126 vs.length "VEC2",
      gltfAccessor 3 (if wide then 5125 else 5123) (m.faces.length * 3) "SCALAR"]),
    (key!"bufferViews", .arr [
      gltfView 0 positions.length 34962,
      gltfView positions.length normals.length 34962,
      gltfView (positions.length + normals.length) texcoords.length 34962,
      gltfView (positions.length + normals.length + texcoords.length) indices.length 34963]),
    (key!"buffers", buffers)], bin⟩

/-- the ASCII bytes of a text (used in /repo/src/vpx/gltf.rs:284-319) -/
def asciiBytes (s : String) : Bytes := s.toList.map fun c => UInt8.ofNat c.toNat

/-- a length as four bytes; `as u32` cuts it (used in /repo/src/vpx/gltf.rs:284-319) -/
def len32 (n : Nat) : Bytes := le32 (UInt32.ofNat n)

/-- `write_glb_payload`, /repo/src/vpx/gltf.rs:284-319. The sum of the lengths must fit in `u32` (the code panics
in a debug build otherwise). -/
def writeGlb (JT : JsonText) (p : GltfPayload) : Bytes :=
  let json := JT.print p.json
  let padding := (4 - json.length % 4) % 4
  let padded := json.length + padding
  asciiBytes "glTF" ++ le32 2 ++ len32 (12 + 8 + padded + 8 + p.bin.length)
  ++ len32 padded ++ asciiBytes "JSON" ++ json ++ List.replicate padding 32
  ++ len32 p.bin.length ++ asciiBytes "BIN\x00" ++ p.bin

/-- `read_exact` of `n` bytes: an error if there are fewer (used in /repo/src/vpx/gltf.rs:386-454) -/
def readExact (n : Nat) (bs : Bytes) : Res (Bytes × Bytes) :=
  if bs.length < n then .error .io else .ok (bs.take n, bs.drop n)

/-- `read_u32::<LittleEndian>` (used in /repo/src/vpx/gltf.rs:386-454) -/
def readU32 (bs : Bytes) : Res (Nat × Bytes) := do
  let (b, rest) ← readExact 4 bs
  pure ((ofLe32 b).toNat, rest)

/-- `&data[start..start + n]` with `rest` from `start` on: panics if there are fewer bytes (used in
/repo/src/vpx/gltf.rs:456-572) -/
def sliceExact (n : Nat) (rest : Bytes) : Res (Bytes × Bytes) :=
  if rest.length < n then .error .panic else .ok (rest.take n, rest.drop n)

/-- an error unless the condition holds (used in /repo/src/vpx/gltf.rs:386-454) -/
def ensure (b : Bool) (e : Err) : Res Unit := if b then .ok () else .error e

/-- `.ok_or_else(..)?`, `.map_err(..)?` (used in /repo/src/vpx/gltf.rs:456-572) -/
def orIo : Option α → Res α
  | some x => .ok x
  | none => .error .io

/-- `read_glb_payload_from_reader`, /repo/src/vpx/gltf.rs:386-454 -/
def readGlbPayload (JT : JsonText) (data : Bytes) : Res GltfPayload := do
  let (magic, rest) ← readExact 4 data
  ensure (magic == asciiBytes "glTF") .io
  let (version, rest) ← readU32 rest
  ensure (version == 2) .io
  let (_, rest) ← readU32 rest
  let (jsonLength, rest) ← readU32 rest
  let (type, rest) ← readExact 4 rest
  ensure (type == asciiBytes "JSON") .io
  let (jsonBytes, rest) ← sliceExact jsonLength rest
  let json ← orIo (JT.parse jsonBytes)
  let (binLength, rest) ← readU32 rest
  let (type, rest) ← readExact 4 rest
  ensure (type == asciiBytes "BIN\x00") .io
  let (bin, _) ← sliceExact binLength rest
  pure ⟨json, bin⟩

/-- `.unwrap()`, `[i]` of a `Vec` (used in /repo/src/vpx/gltf.rs:456-572) -/
def unwrap : Option α → Res α
  | some x => .ok x
  | none => .error .panic

/-- `n` floats at an offset: a panic if the offset is behind the end, an error if there are too few bytes,
/repo/src/vpx/gltf.rs:513-525 -/
def gltfFloats (bin : Bytes) (offset n : Nat) : Res Bytes :=
  if bin.length < offset then .error .panic
  else if bin.length < offset + 4 * n then .error .io
  else .ok ((bin.drop offset).take (4 * n))

/-- the bytes of normal `i` as they are in the table, /repo/src/vpx/gltf.rs:547-554: zeros if they are not there -/
def gltfNormalBytes (normals : Option (List Str)) (i : Nat) : Bytes :=
  match normals with
  | none => List.replicate 12 0
  | some ns =>
    match ns[i]? with
    | none => List.replicate 12 0
    | some s =>
      match hexDecode s with
      | some bs => if bs.length = 12 then bs else List.replicate 12 0
      | none => List.replicate 12 0

/-- vertex `i`, /repo/src/vpx/gltf.rs:512-562 -/
def gltfVertex (bin : Bytes) (po no to : Nat) (normals : Option (List Str)) (i : Nat) : Res VertexWrapper := do
  let p ← gltfFloats bin (po + i * 12) 3
  let n ← gltfFloats bin (no + i * 12) 3
  let t ← gltfFloats bin (to + i * 8) 2
  let v : Vertex := ⟨f32At p 0, f32At p 1, f32At p 2, f32At n 0, f32At n 1, f32At n 2, f32At t 0, f32At t 1⟩
  pure ⟨le32 v.x ++ le32 v.y ++ le32 v.z ++ gltfNormalBytes normals i ++ le32 v.tu ++ le32 v.tv, v⟩

/-- an index, /repo/src/vpx/gltf.rs:582-598: an error if there are too few bytes -/
def gltfIndex (wide : Bool) (bs : Bytes) : Res (Int × Bytes) := do
  if wide then
    let (b, rest) ← readExact 4 bs
    pure (((ofLe32 b).toNat : Int), rest)
  else
    let (b, rest) ← readExact 2 bs
    pure (((ofLe16 b).toNat : Int), rest)

/-- face `i`, /repo/src/vpx/gltf.rs:580-600 -/
def gltfFace (bin : Bytes) (offset : Nat) (wide : Bool) (i : Nat) : Res Face := do
  let start := offset + i * (if wide then 12 else 6)
  if bin.length < start then Except.error .panic
  else
    let (a, rest) ← gltfIndex wide (bin.drop start)
    let (b, rest) ← gltfIndex wide rest
    let (c, _) ← gltfIndex wide rest
    pure ⟨a, b, c⟩

/-- the view and count of accessor `i`, /repo/src/vpx/gltf.rs:482-508 -/
def gltfAccess (accessors views : List J) (i : Nat) : Res (J × Nat) := do
  let a ← unwrap accessors[i]?
  let v ← unwrap (a.at key!"bufferView").asU64?
  let view ← unwrap views[v]?
  let offset ← unwrap (view.at key!"byteOffset").asU64?
  pure (a, offset)

/-- `parse_gltf_payload`, /repo/src/vpx/gltf.rs:456-572 -/
def parseGltf (p : GltfPayload) : Res (Str × Mesh) := do
  let accessors ← orIo ((p.json.at key!"accessors").asArr?)
  let views ← orIo ((p.json.at key!"bufferViews").asArr?)
  let mesh := (p.json.at key!"meshes").idx 0
  let name := ((mesh.at key!"name").asStr?).getD []
  let normals := ((((mesh.at key!"primitives").idx 0).at key!"extras").at key!"vpx_normals").asArr?.map
    fun l => l.map fun j => j.asStr?.getD []
  let (pa, po) ← gltfAccess accessors views 0
  let count ← unwrap (pa.at key!"count").asU64?
  let (_, no) ← gltfAccess accessors views 1
  let (_, to) ← gltfAccess accessors views 2
  let (ia, io) ← gltfAccess accessors views 3
  let icount ← unwrap (ia.at key!"count").asU64?
  let component ← unwrap (ia.at key!"componentType").asU64?
  let vs ← (List.range count).mapM (gltfVertex p.bin po no to normals)
  let fs ← (List.range (icount / 3)).mapM (gltfFace p.bin io (component == 5125))
  pure (name, ⟨vs, fs⟩)

/-- `read_glb_from_reader`, /repo/src/vpx/gltf.rs:379-384 -/
def readGlb (JT : JsonText) (data : Bytes) : Res (Str × Mesh) := do
  let p ← readGlbPayload JT data
  parseGltf p

/-- `write_gltf` for a GLB file, /repo/src/vpx/gltf.rs:72-79 -/
def writeGlbFile (JT : JsonText) (name : Str) (m : Mesh) : Bytes := writeGlb JT (buildGltf name m none)

/-- `write_gltf` for two files, /repo/src/vpx/gltf.rs:80-100: the JSON and the data. `stem` is the file name without
`.gltf`; the second file has the same with `.bin`, in the same directory. -/
def writeGltfFiles (JT : JsonText) (stem name : Str) (m : Mesh) : Bytes × Bytes :=
  let p := buildGltf name m (some (stem ++ ".bin".toList))
  (JT.print p.json, p.bin)

/-- `read_gltf` for two files, /repo/src/vpx/gltf.rs:337-369; `files` are the files of the directory -/
def readGltfFiles (JT : JsonText) (files : Str → Option Bytes) (data : Bytes) : Res (Str × Mesh) := do
  let json ← orIo (JT.parse data)
  let uri ← orIo (((json.at key!"buffers").idx 0).at key!"uri" |>.asStr?)
  ensure (!("data:".toList.isPrefixOf uri)) .io
  let bin ← orIo (files uri)
  parseGltf ⟨json, bin⟩

/-- `read_gltf_as_frame`, /repo/src/vpx/expanded/primitives.rs:945-963 -/
def meshFrame (m : Mesh) : List FrameVertex :=
  m.vertices.map fun w => ⟨w.vertex.x, w.vertex.y, w.vertex.z, w.vertex.nx, w.vertex.ny, w.vertex.nz⟩

end Vpin
