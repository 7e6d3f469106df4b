import Verif.Model.BuiltinMesh
import Verif.Model.Compat
import Verif.Model.Expanded
import Verif.Model.Matrix
import Verif.Model.RampMesh
import Verif.Model.RubberMesh
import Verif.Model.WallMesh
/-
/repo/src/vpx/export/obj_export.rs: the whole table as an OBJ file with its MTL file and images.

The files are modelled as lists of lines with their numbers as `f32` bit patterns; how the library `wavefront_obj_io`
prints a line is not modelled. The meshes of the items that are made from tables of constants (bumpers, gates, kickers,
spinners, hit targets, triggers) and of flippers and plungers are parameters (`Stock`). Paths are left out: the result is
the lines of the two files and the files written to `images/`. Writing a file never fails; when the export ends
with an error, the images already written are left out of the result.
-/
namespace Vpin

/-! ### Lines -/

/-- a line of the OBJ file (used in /repo/src/vpx/export/obj_export.rs:1267-1352) -/
inductive SceneLine where
  /-- `# text` -/
  | comment (text : Str)
  /-- `mtllib file` -/
  | mtllib (file : Str)
  /-- `o name` -/
  | object (name : Str)
  /-- `v x y z` -/
  | v (x y z : F32)
  /-- `vt u v` -/
  | vt (u v : F32)
  /-- `vn x y z` -/
  | vn (x y z : F32)
  /-- `usemtl name` -/
  | usemtl (name : Str)
  /-- `s 1` -/
  | smooth
  /-- `f a/a/a b/b/b c/c/c`: every corner with the number of its position, its texture coordinate and its normal -/
  | f (a b c : Nat × Nat × Nat)
  deriving DecidableEq, Repr

/-- a line of the MTL file (used in /repo/src/vpx/export/obj_export.rs:1438-1470) -/
inductive MtlLine where
  /-- `# text` -/
  | comment (text : Str)
  /-- `newmtl name` -/
  | newmtl (name : Str)
  /-- `Ns x` -/
  | ns (x : F32)
  /-- `Ka r g b` -/
  | ka (r g b : F32)
  /-- `Kd r g b` -/
  | kd (r g b : F32)
  /-- `Ks r g b` -/
  | ks (r g b : F32)
  /-- `Ni x` -/
  | ni (x : F32)
  /-- `d x` -/
  | d (x : F32)
  /-- `illum n` -/
  | illum (n : Nat)
  /-- `map_Kd path` -/
  | mapKd (path : Str)
  /-- `map_Ka path` -/
  | mapKa (path : Str)
  deriving DecidableEq, Repr

/-! ### Options and parameters -/

/-- `ExportUnits`, /repo/src/vpx/units.rs:83-93 -/
inductive ExportUnits where
  | vpu | mm | cm | m
  deriving DecidableEq, Repr

/-- `ExportUnits::scale`, /repo/src/vpx/units.rs:99-106: 1.0, `25.4 * 1.0625 / 50.0`, and that divided by 10.0 and
1000.0, as `f32` (checked against `f32` arithmetic in `Props/ObjExport`) -/
def ExportUnits.scale : ExportUnits → F32
  | .vpu => f32One
  | .mm => 0x3f0a2d0e
  | .cm => 0x3d5d14e3
  | .m => 0x3a0d7e02

/-- `ObjExportOptions`, /repo/src/vpx/export/obj_export.rs:76-124 -/
structure ObjExportOptions where
  dedup_mtl_blocks : Bool
  extract_textures : Bool
  units : ExportUnits
  include_plunger : Bool
  deriving DecidableEq, Repr

/-- `ObjExportOptions::default`, /repo/src/vpx/export/obj_export.rs:126-135 -/
def ObjExportOptions.default : ObjExportOptions := ⟨true, true, .m, true⟩

/-- `ObjExportOptions::vpinball_strict`, /repo/src/vpx/export/obj_export.rs:141-148 -/
def ObjExportOptions.strict : ObjExportOptions := ⟨false, false, .vpu, false⟩

/-- vertices and faces: `(Vec<VertexWrapper>, Vec<VpxFace>)` without the encoded bytes, which the exporter does not
look at (used in /repo/src/vpx/export/obj_export.rs:1257-1265) -/
structure RawMesh where
  vertices : List Vertex
  faces : List Face
  deriving DecidableEq, Repr

/-- `BumperMeshes`, /repo/src/vpx/mesh/bumpers/mod.rs:34-43 -/
structure BumperMeshes where
  base : Option RawMesh
  socket : Option RawMesh
  ring : Option RawMesh
  cap : Option RawMesh

/-- `PlungerMeshes`, /repo/src/vpx/mesh/plungers/mod.rs:82-93 -/
structure PlungerMeshes where
  flat_rod : Option RawMesh
  rod : Option RawMesh
  spring : Option RawMesh
  ring : Option RawMesh
  tip : Option RawMesh

/-- the meshes that are not modelled here, as functions of the items (used in /repo/src/vpx/export/obj_export.rs:427-462) -/
structure Stock where
  /-- `build_bumper_meshes` -/
  bumper : Bumper → BumperMeshes
  /-- `build_plunger_meshes` -/
  plunger : Plunger → PlungerMeshes
  /-- `build_flipper_meshes_unchecked(flipper, 0.0)`: the centre, the base and the rubber -/
  flipper : Flipper → Option (Vec3 × RawMesh × Option RawMesh)
  /-- `build_gate_meshes_unchecked`: the bracket and the wire -/
  gate : Gate → Option (Option RawMesh × RawMesh)
  /-- `build_kicker_meshes`: the plate and the kicker -/
  kicker : Kicker → Option RawMesh × Option RawMesh
  /-- `build_spinner_meshes`: the bracket and the plate -/
  spinner : Spinner → Option RawMesh × RawMesh
  /-- `build_hit_target_mesh_unchecked` -/
  hitTarget : HitTarget → Option RawMesh
  /-- `build_trigger_mesh` -/
  trigger : Trigger → Option RawMesh

/-- `Block`, /repo/src/vpx/export/obj_export.rs:1257-1265 -/
structure Block where
  name : Str
  vertices : List Vertex
  faces : List Face
  translation : Vec3
  material : Option Str
  texture : Option Str
  smoothing : Bool
  deriving DecidableEq, Repr

/-- vertices and triangles as the exporter sees them (used in /repo/src/vpx/export/obj_export.rs:1267-1352) -/
def GenMesh.raw (m : GenMesh) : RawMesh := ⟨m.vertices, m.tris.map Tri.face⟩

/-- a name that is not empty (used in /repo/src/vpx/export/obj_export.rs:1267-1352) -/
def nonEmpty (s : Str) : Option Str := if s.isEmpty then none else some s

/-- the numbers of a colour byte: `c as f32 / 255.0`; 255.0 as bits, /repo/src/vpx/export/obj_export.rs:1472-1478 -/
def colorPart [Arith] (c : UInt8) : F32 := Arith.div (Arith.ofNat c.toNat) 0x437f0000

/-! ### Lookups -/

/-- `MaterialView`, /repo/src/vpx/export/obj_export.rs:237-243 -/
structure MaterialView where
  base_color : Color
  glossy_color : Color
  opacity : F32
  opacity_active : Bool
  is_metal : Bool
  deriving DecidableEq, Repr

/-- `WriterState::material_view_by_name`, /repo/src/vpx/export/obj_export.rs:319-348 -/
def materialByName (g : GameData) (name : Str) : Option MaterialView :=
  if name.isEmpty then none
  else
    match (g.materials.getD []).find? (fun m => eqIgnoreAsciiCase m.name name) with
    | some m => some ⟨m.base_color, m.glossy_color, m.opacity, m.opacity_active, m.type_ == .Metal⟩
    | none =>
      (g.materials_old.find? (fun m => eqIgnoreAsciiCase m.name name)).map fun m =>
        ⟨m.base_color, m.glossy_color, m.opacity, m.opacity_active_edge_alpha &&& 1 != 0, m.is_metal⟩

/-- `WriterState::image_by_name`, /repo/src/vpx/export/obj_export.rs:350-358 -/
def imageByName (images : List ImageData) (name : Str) : Option ImageData :=
  if name.isEmpty then none else images.find? (fun i => eqIgnoreAsciiCase i.name name)

/-- `GameData::effective_detail_level`, /repo/src/vpx/gamedata.rs:1557-1565; `DEFAULT_DETAIL_LEVEL`, line 55 -/
def GameData.detailLevel (g : GameData) : UInt32 :=
  if g.overwrite_global_detail_level = some true then g.user_detail_level.getD 10 else 10

section
variable [Arith]
open Arith

/-- `WriterState::surface_height`, /repo/src/vpx/export/obj_export.rs:360-376 -/
def surfaceHeight (fuel : Nat) (surface : Str) (x y : F32) : List GameItemEnum → Res F32
  | [] => .ok 0
  | item :: rest =>
    if surface.isEmpty then .ok 0
    else
      match item with
      | .wall w =>
        if eqIgnoreAsciiCase w.name surface then .ok w.height_top else surfaceHeight fuel surface x y rest
      | .ramp r =>
        if eqIgnoreAsciiCase r.name surface then getRampSurfaceHeight fuel r x y
        else surfaceHeight fuel surface x y rest
      | _ => surfaceHeight fuel surface x y rest

/-! ### Blocks of an item -/

/-- no translation (used in /repo/src/vpx/export/obj_export.rs:1257-1265) -/
def noMove : Vec3 := ⟨0, 0, 0⟩

/-- `build_playfield_mesh`, /repo/src/vpx/mesh/playfields.rs:31-114 -/
def playfieldMesh (left top right bottom : F32) : RawMesh :=
  ⟨[⟨left, top, 0, 0, 0, f32One, 0, 0⟩, ⟨right, top, 0, 0, 0, f32One, f32One, 0⟩,
    ⟨left, bottom, 0, 0, 0, f32One, 0, f32One⟩, ⟨right, bottom, 0, 0, 0, f32One, f32One, f32One⟩],
   [⟨0, 1, 2⟩, ⟨2, 1, 3⟩]⟩

/-- `write_playfield`, /repo/src/vpx/export/obj_export.rs:383-425 -/
def playfieldBlock (g : GameData) : Block :=
  let m := playfieldMesh g.left g.top g.right g.bottom
  ⟨g.name, m.vertices, m.faces, noMove, some g.playfield_material, nonEmpty g.image, true⟩

/-- a vertex of a primitive in the world, /repo/src/vpx/export/obj_export.rs:490-507 -/
def primitiveVertex (m : Matrix3D F32) (v : Vertex) : Vertex :=
  let p := m.transformVertex ⟨v.x, v.y, v.z⟩
  let w := { v with x := p.x, y := p.y, z := p.z }
  if !v.nx.isNaN && !v.ny.isNaN && !v.nz.isNaN then
    let n := m.transformNormal ⟨v.nx, v.ny, v.nz⟩
    let len := sqrt (n.x *ᶠ n.x +ᶠ n.y *ᶠ n.y +ᶠ n.z *ᶠ n.z)
    if (0 : F32) <ᶠ len then { w with nx := n.x /ᶠ len, ny := n.y /ᶠ len, nz := n.z /ᶠ len } else w
  else w

/-- the world matrix of a primitive, /repo/src/vpx/export/obj_export.rs:557-571 -/
def Primitive.worldMatrix (p : Primitive) : Matrix3D F32 :=
  primitiveWorldMatrix ⟨p.position.x, p.position.y, p.position.z⟩ ⟨p.size.x, p.size.y, p.size.z⟩ p.rot_and_tra0
    p.rot_and_tra1 p.rot_and_tra2 p.rot_and_tra3 p.rot_and_tra4 p.rot_and_tra5 p.rot_and_tra6 p.rot_and_tra7
    p.rot_and_tra8

/-- `write_primitive`, /repo/src/vpx/export/obj_export.rs:464-543; an error of reading the mesh leaves the primitive
out, a panic does not -/
def primitiveBlocks (Z : Zlib) (vpx : VPX) (p : Primitive) : Res (List Block) :=
  if !primitiveIsVisible p vpx.version then .ok []
  else
    match effectivePrimitiveMesh Z p with
    | .error .io => .ok []
    | .error e => .error e
    | .ok none => .ok []
    | .ok (some read) =>
      let g := vpx.gamedata
      .ok [⟨p.name, read.vertices.map fun w => primitiveVertex p.worldMatrix w.vertex, read.faces, noMove,
        some (if p.isPlayfield then g.playfield_material else p.material),
        nonEmpty (if p.isPlayfield then g.image else p.image), false⟩]

/-- the vertices of the side and then those of the top, as one mesh, /repo/src/vpx/export/obj_export.rs:712-720 -/
def combineMeshes (side top : RawMesh) : RawMesh :=
  let n : Int := side.vertices.length
  ⟨side.vertices ++ top.vertices, side.faces ++ top.faces.map fun f => ⟨f.i0 + n, f.i1 + n, f.i2 + n⟩⟩

/-- `write_wall`, /repo/src/vpx/export/obj_export.rs:573-742 -/
def wallBlocks (fuel : Nat) (dims : TableDims) (extract : Bool) (w : Wall) : Res (List Block) := do
  match ← buildWallMeshes fuel w dims with
  | none => pure []
  | some m =>
    pure <|
      match w.is_top_bottom_visible, w.is_side_visible, m.top.map GenMesh.raw, m.side.map GenMesh.raw with
      | true, false, some top, _ =>
        [⟨w.name, top.vertices, top.faces, noMove, some (if w.image.isEmpty then "none".toList else w.image),
          nonEmpty w.image, false⟩]
      | false, true, _, some side =>
        [⟨w.name, side.vertices, side.faces, noMove, some w.side_material, nonEmpty w.side_image, false⟩]
      | true, true, some top, some side =>
        if extract then
          [⟨w.name ++ "Side".toList, side.vertices, side.faces, noMove, some w.side_material, nonEmpty w.side_image,
              true⟩,
           ⟨w.name ++ "Top".toList, top.vertices, top.faces, noMove, some w.top_material, nonEmpty w.image, true⟩]
        else
          let c := combineMeshes side top
          [⟨w.name, c.vertices, c.faces, noMove, some w.top_material, none, true⟩]
      | _, _, _, _ => []

/-- `write_ramp`, /repo/src/vpx/export/obj_export.rs:744-790 -/
def rampBlocks (fuel : Nat) (dims : TableDims) (g : GameData) (r : Ramp) : Res (List Block) := do
  if !r.is_visible then pure []
  else
    let active := (materialByName g r.material).any (·.opacity_active)
    match ← buildRampMesh fuel r dims g.detailLevel active with
    | none => pure []
    | some m => pure [⟨r.name, m.raw.vertices, m.raw.faces, noMove, some r.material, nonEmpty r.image, true⟩]

/-- `write_rubber`, /repo/src/vpx/export/obj_export.rs:792-821 -/
def rubberBlocks (fuel : Nat) (g : GameData) (r : Rubber) : Res (List Block) := do
  if !r.is_visible then pure []
  else
    match ← buildRubberMesh fuel r g.detailLevel with
    | none => pure []
    | some (m, center) => pure [⟨r.name, m.raw.vertices, m.raw.faces, center, some r.material, none, true⟩]

/-- the block of a part of an item, if there is such a part (used in /repo/src/vpx/export/obj_export.rs:823-909) -/
def partBlock (name : Str) (suffix : String) (m : Option RawMesh) (t : Vec3) (material texture : Option Str) :
    List Block :=
  match m with
  | none => []
  | some m => [⟨name ++ suffix.toList, m.vertices, m.faces, t, material, texture, true⟩]

/-- `write_bumper`, /repo/src/vpx/export/obj_export.rs:823-909 -/
def bumperBlocks (S : Stock) (fuel : Nat) (items : List GameItemEnum) (b : Bumper) : Res (List Block) := do
  let h ← surfaceHeight fuel b.surface b.center.x b.center.y items
  let t : Vec3 := ⟨b.center.x, b.center.y, h⟩
  let m := S.bumper b
  pure (partBlock b.name "Base" m.base t (some b.base_material) none ++ partBlock b.name "Ring" m.ring t none none ++
    partBlock b.name "Skirt" m.socket t (some b.socket_material) none ++
    partBlock b.name "Cap" m.cap t (some b.cap_material) none)

/-- `write_plunger`, /repo/src/vpx/export/obj_export.rs:911-970 -/
def plungerBlocks (S : Stock) (fuel : Nat) (items : List GameItemEnum) (p : Plunger) : Res (List Block) := do
  if !p.is_visible then pure []
  else
    let h ← surfaceHeight fuel p.surface p.center.x p.center.y items
    let t : Vec3 := ⟨p.center.x, p.center.y, h +ᶠ p.z_adjust⟩
    let m := S.plunger p
    let mat := nonEmpty p.material
    let tex := nonEmpty p.image
    pure (partBlock p.name "Flat" m.flat_rod t mat tex ++ partBlock p.name "Rod" m.rod t mat tex ++
      partBlock p.name "Spring" m.spring t mat tex ++ partBlock p.name "Ring" m.ring t mat tex ++
      partBlock p.name "Tip" m.tip t mat tex)

/-- `write_flipper`, /repo/src/vpx/export/obj_export.rs:972-1023 -/
def flipperBlocks (S : Stock) (f : Flipper) : List Block :=
  match S.flipper f with
  | none => []
  | some (center, base, rubber) =>
    partBlock f.name "Base" (some base) center (some f.material) (f.image.bind nonEmpty) ++
      partBlock f.name "Rubber" rubber center (some f.rubber_material) none

/-- `write_gate`, /repo/src/vpx/export/obj_export.rs:1025-1072 -/
def gateBlocks (S : Stock) (fuel : Nat) (items : List GameItemEnum) (g : Gate) : Res (List Block) := do
  let h ← surfaceHeight fuel g.surface g.center.x g.center.y items
  let t : Vec3 := ⟨g.center.x, g.center.y, h +ᶠ g.height⟩
  match S.gate g with
  | none => pure []
  | some (bracket, wire) =>
    pure (partBlock g.name "Bracket" bracket t (some g.material) none ++
      partBlock g.name "Wire" (some wire) t (some g.material) none)

/-- `write_kicker`, /repo/src/vpx/export/obj_export.rs:1074-1126 -/
def kickerBlocks (S : Stock) (fuel : Nat) (items : List GameItemEnum) (k : Kicker) : Res (List Block) := do
  if k.kicker_type = .Invisible then pure []
  else
    let h ← surfaceHeight fuel k.surface k.center.x k.center.y items
    let t : Vec3 := ⟨k.center.x, k.center.y, h⟩
    let m := S.kicker k
    pure (partBlock k.name "Plate" m.1 t (some k.material) none ++ partBlock k.name "" m.2 t (some k.material) none)

/-- `write_spinner`, /repo/src/vpx/export/obj_export.rs:1128-1183 -/
def spinnerBlocks (S : Stock) (fuel : Nat) (items : List GameItemEnum) (s : Spinner) : Res (List Block) := do
  let h ← surfaceHeight fuel s.surface s.center.x s.center.y items
  let t : Vec3 := ⟨s.center.x, s.center.y, h +ᶠ s.height⟩
  let m := S.spinner s
  pure (partBlock s.name "Bracket" m.1 t (some s.material) none ++ partBlock s.name "Plate" (some m.2) t none none)

/-- `write_hittarget`, /repo/src/vpx/export/obj_export.rs:1185-1218 -/
def hitTargetBlocks (S : Stock) (h : HitTarget) : List Block :=
  partBlock h.name "" (S.hitTarget h) ⟨h.position.x, h.position.y, h.position.z⟩ (some h.material) (nonEmpty h.image)

/-- `write_trigger`, /repo/src/vpx/export/obj_export.rs:1220-1251 -/
def triggerBlocks (S : Stock) (fuel : Nat) (items : List GameItemEnum) (t : Trigger) : Res (List Block) := do
  if !t.is_visible then pure []
  else
    let h ← surfaceHeight fuel t.surface t.center.x t.center.y items
    pure (partBlock t.name "" (S.trigger t) ⟨t.center.x, t.center.y, h⟩ (some t.material) none)

/-- `write_gameitem`, /repo/src/vpx/export/obj_export.rs:427-462: the blocks of an item in the order they are
written (no block depends on what was written before) -/
def itemBlocks (Z : Zlib) (S : Stock) (fuel : Nat) (o : ObjExportOptions) (vpx : VPX) : GameItemEnum → Res (List Block)
  | .primitive p => primitiveBlocks Z vpx p
  | .wall w =>
    wallBlocks fuel ⟨vpx.gamedata.left, vpx.gamedata.top, vpx.gamedata.right, vpx.gamedata.bottom⟩ o.extract_textures w
  | .ramp r =>
    rampBlocks fuel ⟨vpx.gamedata.left, vpx.gamedata.top, vpx.gamedata.right, vpx.gamedata.bottom⟩ vpx.gamedata r
  | .rubber r => rubberBlocks fuel vpx.gamedata r
  | .bumper b => bumperBlocks S fuel vpx.gameitems b
  | .flipper f => .ok (flipperBlocks S f)
  | .gate g => gateBlocks S fuel vpx.gameitems g
  | .kicker k => kickerBlocks S fuel vpx.gameitems k
  | .spinner s => spinnerBlocks S fuel vpx.gameitems s
  | .hitTarget h => .ok (hitTargetBlocks S h)
  | .trigger t => triggerBlocks S fuel vpx.gameitems t
  | .plunger p => if o.include_plunger then plungerBlocks S fuel vpx.gameitems p else .ok []
  | _ => .ok []

/-! ### Writing -/

/-- the parts of `WriterState` that change, /repo/src/vpx/export/obj_export.rs:249-286, and what was written.
`counter` is a `u32`, taken as unbounded here. -/
structure ObjState where
  /-- `face_offset`, a `u32` -/
  offset : Nat
  /-- `images_written` and `image_filenames`: the same keys -/
  filenames : List (Str × Str)
  /-- `used_lower_filenames` -/
  used : List Str
  counter : Nat
  /-- `seen_mtl_pairs` -/
  seen : List (Str × Str)
  obj : List SceneLine
  mtl : List MtlLine
  /-- files written to `images/`, in the order of writing -/
  images : List (Str × Bytes)

/-- `x as u32` for an `i64` (used in /repo/src/vpx/export/obj_export.rs:1267-1352) -/
def asU32 (i : Int) : Nat := (i % 2 ^ 32).toNat

/-- a checked `u32`: an overflow panics in a build with overflow checks (without them it wraps) (used in
/repo/src/vpx/export/obj_export.rs:1267-1352) -/
def checkedU32 (n : Nat) : Res Nat := if n < 2 ^ 32 then .ok n else .error .panic

/-- the number of a corner: `face.i2 as u32 + 1 + state.face_offset`, /repo/src/vpx/export/obj_export.rs:1338-1340 -/
def cornerNumber (offset : Nat) (i : Int) : Res (Nat × Nat × Nat) := do
  let n ← checkedU32 (asU32 i + 1 + offset)
  pure (n, n, n)

/-- a face, /repo/src/vpx/export/obj_export.rs:1337-1346: the corners in reverse -/
def faceLine (offset : Nat) (f : Face) : Res SceneLine := do
  let a ← cornerNumber offset f.i2
  let b ← cornerNumber offset f.i1
  let c ← cornerNumber offset f.i0
  pure (.f a b c)

/-- /repo/src/vpx/export/obj_export.rs:1282-1288 -/
def positionLine (scale : F32) (t : Vec3) (v : Vertex) : SceneLine :=
  .v ((v.x +ᶠ t.x) *ᶠ scale) ((v.y +ᶠ t.y) *ᶠ scale) ((v.z +ᶠ t.z) *ᶠ scale).neg

/-- /repo/src/vpx/export/obj_export.rs:1290-1302 -/
def texcoordLine (v : Vertex) : SceneLine := .vt (nanZero v.tu) (if v.tv.isNaN then 0 else f32One -ᶠ v.tv)

/-- /repo/src/vpx/export/obj_export.rs:1304-1321 -/
def normalLine (v : Vertex) : SceneLine :=
  .vn (nanZero v.nx) (nanZero v.ny) (if v.nz.isNaN then 0 else v.nz.neg)

/-- the loop of `sanitized_image_filename`, /repo/src/vpx/export/obj_export.rs:1559-1563, with fuel: the name and
the counter -/
def imageNameLoop (U : Unicode) (used : List Str) (base ext : Str) : Nat → Nat → Res (Str × Nat)
  | 0, _ => .error .fuel
  | fuel + 1, counter =>
    let n := fileName (base ++ "_dedup".toList ++ decimal (counter + 1)) ext
    if used.contains (U.lower n) then imageNameLoop U used base ext fuel (counter + 1) else .ok (n, counter + 1)

/-- `sanitized_image_filename`, /repo/src/vpx/export/obj_export.rs:1555-1566 -/
def sanitizedImageFilename (E : ExpandEnv) (name ext : Str) (s : ObjState) : Res (Str × ObjState) := do
  let base := E.sanitize name
  let n := fileName base ext
  let (n, counter) ← (if s.used.contains (E.U.lower n) then
      imageNameLoop E.U s.used base ext (s.used.length + 1) s.counter else .ok (n, s.counter) : Res (Str × Nat))
  pure (n, { s with used := E.U.lower n :: s.used, counter := counter })

/-- the content of the file of an image, /repo/src/vpx/export/obj_export.rs:1513-1525 and 1532-1537 -/
def imagePayload (E : ExpandEnv) (i : ImageData) : Option (Res Bytes) :=
  match i.jpeg, i.bits with
  | some j, _ => some (.ok j.data)
  | none, some bits => some (bmpFile E bits i.width i.height)
  | none, none => none

/-- `images/` and the name of a file (used in /repo/src/vpx/export/obj_export.rs:1496-1544) -/
def imagePath (file : Str) : Str := "images/".toList ++ file

/-- `ensure_image_written`, /repo/src/vpx/export/obj_export.rs:1496-1544 -/
def ensureImageWritten (E : ExpandEnv) (images : List ImageData) (name : Str) (s : ObjState) :
    Res (Option Str × ObjState) :=
  match s.filenames.find? (fun p => p.1 == name) with
  | some p => .ok (some (imagePath p.2), s)
  | none =>
    match imageByName images name with
    | none => .ok (none, s)
    | some i =>
      match imagePayload E i with
      | none => .ok (none, s)
      | some content => do
        let (file, s) ← sanitizedImageFilename E i.name i.ext s
        let bs ← content
        pure (some (imagePath file),
          { s with images := s.images ++ [(file, bs)], filenames := (name, file) :: s.filenames })

/-- `sanitize_material_name`, /repo/src/vpx/export/obj_export.rs:1434-1436 -/
def materialName (name : Str) : Str := name.filter (· != ' ')

/-- `write_mtl_block`, /repo/src/vpx/export/obj_export.rs:1438-1470; 7.843137 and 1.5 as bits. `color_to_kd` and
`color_to_ks`, 1472-1491, are included. -/
def mtlBlock (g : GameData) (mtlName material : Str) (map : Option Str) : List MtlLine :=
  let m := materialByName g material
  let rgb (c : Color) := (colorPart c.r, colorPart c.g, colorPart c.b)
  let kd := match m with
    | some m => rgb m.base_color
    | none => (f32One, f32One, f32One)
  let ks := match m with
    | some m => if m.is_metal then rgb m.base_color else rgb m.glossy_color
    | none => (0, 0, 0)
  let opacity := match m with
    | some m => if m.opacity_active then m.opacity else f32One
    | none => f32One
  [.newmtl mtlName, .ns 0x40fafafa, .ka 0 0 0, .kd kd.1 kd.2.1 kd.2.2, .ks ks.1 ks.2.1 ks.2.2, .ni fOneHalf, .d opacity,
    .illum 5] ++
    match map with
    | some p => [.mapKd p, .mapKa p]
    | none => []

/-- the name of the `newmtl` block, /repo/src/vpx/export/obj_export.rs:1396-1411 -/
def mtlBlockName (E : ExpandEnv) (extract : Bool) (material : Str) (texture : Option Str) : Str :=
  match texture with
  | some t => if extract && !t.isEmpty then materialName material ++ "__".toList ++ E.sanitize t else materialName material
  | none => materialName material

/-- `emit_mtl_block`, /repo/src/vpx/export/obj_export.rs:1375-1431 -/
def emitMtlBlock (E : ExpandEnv) (o : ObjExportOptions) (vpx : VPX) (material : Str) (texture : Option Str)
    (s : ObjState) : Res (Str × ObjState) := do
  let (map, s) ← (match o.extract_textures, texture with
    | true, some t => ensureImageWritten E vpx.images t s
    | _, _ => .ok (none, s) : Res (Option Str × ObjState))
  let name := mtlBlockName E o.extract_textures material texture
  let key := (material, texture.getD [])
  let dedup := o.dedup_mtl_blocks || (o.extract_textures && map.isSome)
  if dedup && s.seen.contains key then pure (name, s)
  else
    pure (name, { s with seen := if dedup then key :: s.seen else s.seen,
                         mtl := s.mtl ++ mtlBlock vpx.gamedata name material map })

/-- the `usemtl` line, /repo/src/vpx/export/obj_export.rs:1327-1330 -/
def useMaterial (E : ExpandEnv) (o : ObjExportOptions) (vpx : VPX) (b : Block) (s : ObjState) : Res ObjState :=
  match b.material with
  | none => .ok s
  | some m => do
    let (name, s) ← emitMtlBlock E o vpx m b.texture s
    pure { s with obj := s.obj ++ [.usemtl name] }

/-- `write_block`, /repo/src/vpx/export/obj_export.rs:1267-1352 -/
def writeBlock (E : ExpandEnv) (o : ObjExportOptions) (vpx : VPX) (s : ObjState) (b : Block) : Res ObjState :=
  if b.vertices.isEmpty || b.faces.isEmpty then .ok s
  else do
    let s := { s with obj := s.obj ++ .object b.name :: (b.vertices.map (positionLine o.units.scale b.translation) ++
      b.vertices.map texcoordLine ++ b.vertices.map normalLine) }
    let s ← useMaterial E o vpx b s
    let s := if b.smoothing then { s with obj := s.obj ++ [.smooth] } else s
    let faces ← b.faces.mapM (faceLine s.offset)
    pure { s with obj := s.obj ++ faces, offset := min (2 ^ 32 - 1) (s.offset + b.vertices.length % 2 ^ 32) }

/-- what is written, /repo/src/vpx/export/obj_export.rs:176-231 -/
structure ObjExport where
  obj : List SceneLine
  mtl : List MtlLine
  images : List (Str × Bytes)

/-- the state at the start, /repo/src/vpx/export/obj_export.rs:202-206 -/
def ObjState.start (mtlFile : Str) : ObjState where
  offset := 0
  filenames := []
  used := []
  counter := 0
  seen := []
  obj := [.comment "VPin table OBJ file".toList, .mtllib mtlFile]
  mtl := [.comment "VPin table mat file".toList]
  images := []

/-- `write_gameitem`, /repo/src/vpx/export/obj_export.rs:427-462 -/
def writeItem (E : ExpandEnv) (S : Stock) (fuel : Nat) (o : ObjExportOptions) (vpx : VPX) (s : ObjState)
    (item : GameItemEnum) : Res ObjState := do
  let bs ← itemBlocks E.Z S fuel o vpx item
  bs.foldlM (writeBlock E o vpx) s

/-- `export_obj`, /repo/src/vpx/export/obj_export.rs:176-231; `mtlFile` is the name of the MTL file -/
def exportObj (E : ExpandEnv) (S : Stock) (fuel : Nat) (o : ObjExportOptions) (vpx : VPX) (mtlFile : Str) :
    Res ObjExport := do
  let s ← writeBlock E o vpx (ObjState.start mtlFile) (playfieldBlock vpx.gamedata)
  let s ← vpx.gameitems.foldlM (writeItem E S fuel o vpx) s
  pure ⟨s.obj, s.mtl, s.images⟩

end
end Vpin
