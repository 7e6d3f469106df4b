import Verif.Model.ObjExport
/-
/repo/src/vpx/export/gltf_export.rs, first part: the meshes, groups and materials of a table for the export as one
glTF file.

The meshes of the items that are made from tables of constants, and of flippers, plungers, flashers, lights, decals and
balls, are parameters (`GltfStock`), as is the JSON form of an item (`extras`). Vertices carry no encoded bytes: the
exporter does not look at them.
-/
namespace Vpin

/-- red, green, blue, alpha (used in /repo/src/vpx/export/gltf_export.rs:374-383) -/
structure Rgba where
  r : F32
  g : F32
  b : F32
  a : F32
  deriving DecidableEq, Repr

/-- `NamedMesh`, /repo/src/vpx/export/gltf_export.rs:171-215 -/
structure NamedMesh where
  name : Str
  vertices : List Vertex
  faces : List Face
  material : Option Str
  texture : Option Str
  tint : Option Rgba
  layer : Option Str
  transmission : Option F32
  isBall : Bool
  roughnessTexture : Option Str
  translation : Option Vec3
  scale : Option Vec3
  visible : Bool
  group : Option Str
  deriving DecidableEq, Repr

/-- `NamedMesh::default` with a name and a mesh, /repo/src/vpx/export/gltf_export.rs:245-264 -/
def NamedMesh.of (name : Str) (m : RawMesh) : NamedMesh where
  name := name
  vertices := m.vertices
  faces := m.faces
  material := none
  texture := none
  tint := none
  layer := none
  transmission := none
  isBall := false
  roughnessTexture := none
  translation := none
  scale := none
  visible := true
  group := none

/-- `NamedMesh::is_playfield`, /repo/src/vpx/export/gltf_export.rs:266-270 -/
def NamedMesh.isPlayfield (m : NamedMesh) : Bool := eqIgnoreAsciiCase m.name "playfield_mesh".toList

/-- `ItemGroupInfo`, /repo/src/vpx/export/gltf_export.rs:219-226 -/
structure ItemGroup where
  name : Str
  layer : Option Str
  extras : J

/-- the meshes that are not modelled, as functions of the items; none of them panics (used in
/repo/src/vpx/export/gltf_export.rs:778-1918) -/
structure GltfStock extends Stock where
  /-- `build_flasher_mesh`: the mesh and its centre -/
  flasher : Flasher → TableDims → Option (RawMesh × Vec3)
  /-- `build_light_meshes`: the bulb and the socket -/
  light : Light → Option (Option RawMesh × Option RawMesh)
  /-- `build_light_insert_mesh`: the mesh and its centre -/
  insert : Light → TableDims → Option (RawMesh × Vec3)
  /-- `build_decal_mesh` -/
  decal : Decal → Option RawMesh
  /-- `build_ball_mesh` -/
  ball : Ball → RawMesh

/-- `GltfFormat`, /repo/src/vpx/export/gltf_export.rs:3033-3039 -/
inductive GltfFormat where
  | glb | gltf
  deriving DecidableEq, Repr

/-- `GltfExportOptions`, /repo/src/vpx/export/gltf_export.rs:3043-3065 -/
structure GltfOptions where
  format : GltfFormat
  exportInvisible : Bool
  units : ExportUnits
  deriving DecidableEq, Repr

/-- `GltfExportOptions::default`, /repo/src/vpx/export/gltf_export.rs:3067-3078 -/
def GltfOptions.default : GltfOptions := ⟨.glb, false, .m⟩

/-- `GltfMaterial`, /repo/src/vpx/export/gltf_export.rs:374-383 -/
structure GltfMaterial where
  name : Str
  color : Rgba
  metallic : F32
  roughness : F32
  opacityActive : Bool
  deriving DecidableEq, Repr

/-- `GltfCamera`, /repo/src/vpx/export/camera.rs:331-344; the mode is its name, lines 145-151 -/
structure GltfCamera where
  name : Str
  position : Vec3
  rotation : F32 × F32 × F32 × F32
  yfov : F32
  znear : F32
  zfar : F32
  deriving DecidableEq, Repr

/-- what the export takes from outside: Unicode tables, the decompressor, the meshes, the encoder of PNG files, the
pixels of an image, the JSON forms of items and of the table (objects, made from structures), the three cameras, and
the orders in which hash maps are walked, of which nothing is known (used in /repo/src/vpx/export/gltf_export.rs:3137-3213) -/
structure GltfEnv where
  U : Unicode
  Z : Zlib
  S : GltfStock
  /-- `vpx_image_to_dynamic_image` and `write_to` as PNG; `none` if the encoder fails -/
  png : Bytes → UInt32 → UInt32 → Res (Option Bytes)
  /-- `image_has_transparency` of an image that does not say, /repo/src/vpx/image.rs:573-590 -/
  seeThrough : ImageData → Bool
  /-- `serde_json::to_value(item)` -/
  extras : GameItemEnum → J
  /-- `serde_json::to_value(GameDataJson::from_game_data(..))` -/
  tableExtras : GameData → J
  extras_some : ∀ i, extras i ≠ .null
  tableExtras_some : ∀ g, tableExtras g ≠ .null
  /-- `GltfCamera::all_from_vpx` -/
  cameras : VPX → List GltfCamera
  materialOrder : List (Str × GltfMaterial) → List (Str × GltfMaterial)
  materialOrder_perm : ∀ l, (materialOrder l).Perm l
  layerOrder : List (Str × List Nat) → List (Str × List Nat)
  layerOrder_perm : ∀ l, (layerOrder l).Perm l

/-- `get_layer_name`, /repo/src/vpx/export/gltf_export.rs:556-566. `layer + 1` of the largest number, which panics in a
debug build, is taken as it is in a release build: 0. -/
def layerName (a : SharedAttrs) : Option Str :=
  match a.editor_layer_name.bind nonEmpty with
  | some n => some ("Layer_".toList ++ n)
  | none => a.editor_layer.map fun l => "Layer_".toList ++ decimal (l + 1).toNat

/-- `item_group_info_for`, /repo/src/vpx/export/gltf_export.rs:232-243, of an item with its name and shared fields -/
def itemGroup (E : GltfEnv) (item : GameItemEnum) (a : SharedAttrs) : ItemGroup :=
  ⟨item.name, layerName a, E.extras item⟩

section
variable [Arith]
open Arith

/-- `vpu_to_units`, /repo/src/vpx/units.rs:110-113 -/
def toUnits (u : ExportUnits) (x : F32) : F32 := x *ᶠ u.scale

/-- a position in glTF coordinates, as the exporter writes them at every item: x, z, y in `units` (used in
/repo/src/vpx/export/gltf_export.rs:778-1918) -/
def gltfPoint (u : ExportUnits) (x y z : F32) : Vec3 := ⟨toUnits u x, toUnits u z, toUnits u y⟩

/-- `calculate_transmission_factor`, /repo/src/vpx/export/gltf_export.rs:575-580; 0.3 as bits -/
def transmissionFactor (below : Option F32) : Option F32 :=
  match below with
  | some v => if v <ᶠ f32One then some ((f32One -ᶠ v) *ᶠ 0x3e99999a) else none
  | none => none

/-- `lookup_material_opacity`, /repo/src/vpx/export/gltf_export.rs:588-607 -/
def materialOpacity (g : GameData) (name : Str) : Option (Bool × F32) :=
  if name.isEmpty then none
  else
    match (g.materials.getD []).find? (fun m => eqIgnoreAsciiCase m.name name) with
    | some m => some (m.opacity_active, m.opacity)
    | none =>
      (g.materials_old.find? (fun m => eqIgnoreAsciiCase m.name name)).map fun m =>
        (m.opacity_active_edge_alpha &&& 1 != 0, m.opacity)

/-- the matrix of `transform_primitive_vertices` without the position, /repo/src/vpx/export/gltf_export.rs:302-329, of the
fields `size` and `rot_and_tra` -/
def primitiveLocalMatrix {α : Type} [Ops α] (size : V3 α) (t0 t1 t2 t3 t4 t5 t6 t7 t8 : α) : Matrix3D α :=
  let rt := ((Matrix3D.translate t3 t4 t5).mult (.rotateZ (Ops.radians t2))).mult (.rotateY (Ops.radians t1)) |>.mult
    (.rotateX (Ops.radians t0))
  let rt := ((rt.mult (.rotateZ (Ops.radians t8))).mult (.rotateY (Ops.radians t7))).mult (.rotateX (Ops.radians t6))
  (Matrix3D.scale size.x size.y size.z).mult rt

/-- the matrix of a primitive, /repo/src/vpx/export/gltf_export.rs:302-329 -/
def Primitive.localMatrix (p : Primitive) : Matrix3D F32 :=
  primitiveLocalMatrix ⟨p.size.x, p.size.y, p.size.z⟩ p.rot_and_tra0 p.rot_and_tra1 p.rot_and_tra2 p.rot_and_tra3
    p.rot_and_tra4 p.rot_and_tra5 p.rot_and_tra6 p.rot_and_tra7 p.rot_and_tra8

/-- a group and the meshes of an item, and whether the item is the playfield (used in
/repo/src/vpx/export/gltf_export.rs:778-1918) -/
structure Collected where
  groups : List ItemGroup
  meshes : List NamedMesh
  playfield : Bool

/-- nothing (used in /repo/src/vpx/export/gltf_export.rs:778-1918) -/
def Collected.none : Collected := ⟨[], [], false⟩

/-- an optional part of an item: its mesh with what the item sets (used in /repo/src/vpx/export/gltf_export.rs:778-1918) -/
def partMesh (name : Str) (suffix : String) (m : Option RawMesh) (f : NamedMesh → NamedMesh) : List NamedMesh :=
  match m with
  | .none => []
  | some m => [f (NamedMesh.of (name ++ suffix.toList) m)]

/-- the dimensions of the table, /repo/src/vpx/export/gltf_export.rs:794-799 -/
def GameData.dims (g : GameData) : TableDims := ⟨g.left, g.top, g.right, g.bottom⟩

/-- the name of the playfield material, /repo/src/vpx/export/gltf_export.rs:786-790 -/
def GameData.playfieldMaterial (g : GameData) : Str :=
  if g.playfield_material.isEmpty then "__playfield__".toList else g.playfield_material

/-- primitives, /repo/src/vpx/export/gltf_export.rs:804-879 and `transform_primitive_vertices`, lines 295-367; an error
of reading the mesh leaves the primitive out, a panic does not -/
def collectPrimitive (E : GltfEnv) (o : GltfOptions) (vpx : VPX) (p : Primitive) : Res Collected :=
  let g := vpx.gamedata
  let visible := primitiveIsVisible p vpx.version
  if !o.exportInvisible && !visible then .ok .none
  else
    match effectivePrimitiveMesh E.Z p with
    | .error .io => .ok .none
    | .error e => .error e
    | .ok none => .ok .none
    | .ok (some read) =>
      let group := itemGroup E (.primitive p) p.shared
      let mesh := NamedMesh.of p.name
        ⟨read.vertices.map fun w => primitiveVertex p.localMatrix w.vertex, read.faces⟩
      .ok ⟨[group], [{ mesh with
        material := if p.isPlayfield then some g.playfieldMaterial else nonEmpty p.material
        texture := if p.isPlayfield then nonEmpty g.image else nonEmpty p.image
        layer := group.layer
        transmission :=
          transmissionFactor (primitiveDisableLightingBelow p (materialOpacity g p.material) vpx.version)
        translation := some (gltfPoint o.units p.position.x p.position.y p.position.z)
        visible := visible
        group := some p.name }], p.isPlayfield⟩

/-- walls, /repo/src/vpx/export/gltf_export.rs:880-955 -/
def collectWall (E : GltfEnv) (fuel : Nat) (o : GltfOptions) (vpx : VPX) (w : Wall) : Res Collected := do
  if !o.exportInvisible && !w.is_top_bottom_visible && !w.is_side_visible then pure .none
  else
    match ← buildWallMeshes fuel w vpx.gamedata.dims with
    | none => pure .none
    | some m =>
      let group := itemGroup E (.wall w) w.shared
      let top := if o.exportInvisible || w.is_top_bottom_visible then m.top.map GenMesh.raw else none
      let side := if o.exportInvisible || w.is_side_visible then m.side.map GenMesh.raw else none
      pure ⟨[group],
        partMesh w.name "Top" top (fun n => { n with
          material := nonEmpty w.top_material
          texture := nonEmpty w.image
          layer := group.layer
          transmission := transmissionFactor w.disable_lighting_below
          visible := w.is_top_bottom_visible
          group := some w.name }) ++
        partMesh w.name "Side" side (fun n => { n with
          material := nonEmpty w.side_material
          texture := nonEmpty w.side_image
          layer := group.layer
          transmission := transmissionFactor w.disable_lighting_below
          visible := w.is_side_visible
          group := some w.name }), false⟩

/-- ramps, /repo/src/vpx/export/gltf_export.rs:956-1005 -/
def collectRamp (E : GltfEnv) (fuel : Nat) (o : GltfOptions) (vpx : VPX) (r : Ramp) : Res Collected := do
  if !o.exportInvisible && !r.is_visible then pure .none
  else
    let active := ((vpx.gamedata.materials.getD []).find? (fun m => eqIgnoreAsciiCase m.name r.material)).any
      (·.opacity_active)
    match ← buildRampMesh fuel r vpx.gamedata.dims vpx.gamedata.detailLevel active with
    | none => pure .none
    | some m =>
      let group := itemGroup E (.ramp r) r.shared
      pure ⟨[group], partMesh r.name "" (some m.raw) (fun n => { n with
        material := nonEmpty r.material
        texture := nonEmpty r.image
        layer := group.layer
        visible := r.is_visible
        group := some r.name }), false⟩

/-- rubbers, /repo/src/vpx/export/gltf_export.rs:1006-1042 -/
def collectRubber (E : GltfEnv) (fuel : Nat) (o : GltfOptions) (vpx : VPX) (r : Rubber) : Res Collected := do
  if !o.exportInvisible && !r.is_visible then pure .none
  else
    match ← buildRubberMesh fuel r vpx.gamedata.detailLevel with
    | none => pure .none
    | some (m, c) =>
      let group := itemGroup E (.rubber r) r.shared
      pure ⟨[group], partMesh r.name "" (some m.raw) (fun n => { n with
        material := nonEmpty r.material
        layer := group.layer
        translation := some (gltfPoint o.units c.x c.y c.z)
        visible := r.is_visible
        group := some r.name }), false⟩

/-- `n as f32` for an `i32` (used in /repo/src/vpx/export/gltf_export.rs:394) -/
def f32OfInt32 (n : Int32) : F32 := if n < 0 then F32.neg (ofNat n.toInt.natAbs) else ofNat n.toInt.natAbs

/-- the numbers of a colour with an alpha (used in /repo/src/vpx/export/gltf_export.rs:394) -/
def colorTint (c : Color) (a : F32) : Rgba := ⟨colorPart c.r, colorPart c.g, colorPart c.b, a⟩

/-- flashers, /repo/src/vpx/export/gltf_export.rs:1043-1090; 100.0 as bits -/
def collectFlasher (E : GltfEnv) (o : GltfOptions) (vpx : VPX) (f : Flasher) : Collected :=
  if !o.exportInvisible && !f.is_visible then .none
  else
    match E.S.flasher f vpx.gamedata.dims with
    | none => .none
    | some (m, c) =>
      let group := itemGroup E (.flasher f) f.shared
      ⟨[group], partMesh f.name "" (some m) (fun n => { n with
        texture := nonEmpty f.image_a
        tint := some (colorTint f.color (f32OfInt32 f.alpha /ᶠ 0x42c80000))
        layer := group.layer
        translation := some (gltfPoint o.units c.x c.y c.z)
        visible := f.is_visible
        group := some f.name }), false⟩

/-- flippers, /repo/src/vpx/export/gltf_export.rs:1091-1153; `build_flipper_meshes` makes no mesh of a hidden flipper,
/repo/src/vpx/mesh/flippers/mod.rs:493-498 -/
def collectFlipper (E : GltfEnv) (o : GltfOptions) (f : Flipper) : Collected :=
  if !o.exportInvisible && !f.is_visible then .none
  else
    match if f.is_visible then E.S.flipper f else none with
    | none => .none
    | some (c, base, rubber) =>
      let group := itemGroup E (.flipper f) f.shared
      let t := some (gltfPoint o.units c.x c.y c.z)
      ⟨[group],
        partMesh f.name "Base" (some base) (fun n => { n with
          material := nonEmpty f.material
          texture := f.image.bind nonEmpty
          layer := group.layer
          translation := t
          visible := f.is_visible
          group := some f.name }) ++
        partMesh f.name "Rubber" rubber (fun n => { n with
          material := nonEmpty f.rubber_material
          layer := group.layer
          translation := t
          visible := f.is_visible
          group := some f.name }), false⟩

/-- bumpers, /repo/src/vpx/export/gltf_export.rs:1154-1250 -/
def collectBumper (E : GltfEnv) (fuel : Nat) (o : GltfOptions) (vpx : VPX) (b : Bumper) : Res Collected := do
  let h ← surfaceHeight fuel b.surface b.center.x b.center.y vpx.gameitems
  let m := E.S.bumper b
  let group := itemGroup E (.bumper b) b.shared
  let t := some (gltfPoint o.units b.center.x b.center.y h)
  let part := fun (suffix : String) (mesh : Option RawMesh) (material : Option Str) =>
    partMesh b.name suffix mesh (fun n => { n with
      material := material, layer := group.layer, translation := t, group := some b.name })
  pure ⟨[group], part "Base" m.base (nonEmpty b.base_material) ++ part "Socket" m.socket (nonEmpty b.socket_material) ++
    part "Ring" m.ring (b.ring_material.bind nonEmpty) ++ part "Cap" m.cap (nonEmpty b.cap_material), false⟩

/-- spinners, /repo/src/vpx/export/gltf_export.rs:1251-1302 -/
def collectSpinner (E : GltfEnv) (fuel : Nat) (o : GltfOptions) (vpx : VPX) (s : Spinner) : Res Collected := do
  if !o.exportInvisible && !s.is_visible then pure .none
  else
    let h ← surfaceHeight fuel s.surface s.center.x s.center.y vpx.gameitems
    let m := E.S.spinner s
    let group := itemGroup E (.spinner s) s.shared
    let t := some (gltfPoint o.units s.center.x s.center.y (h +ᶠ s.height))
    pure ⟨[group],
      partMesh s.name "Bracket" m.1 (fun n => { n with
        layer := group.layer, translation := t, visible := s.is_visible, group := some s.name }) ++
      partMesh s.name "Plate" (some m.2) (fun n => { n with
        material := nonEmpty s.material
        texture := nonEmpty s.image
        layer := group.layer
        translation := t
        visible := s.is_visible
        group := some s.name }), false⟩

/-- hit targets, /repo/src/vpx/export/gltf_export.rs:1303-1342; `build_hit_target_mesh` makes no mesh of a hidden one,
/repo/src/vpx/mesh/hittargets/mod.rs:86-91 -/
def collectHitTarget (E : GltfEnv) (o : GltfOptions) (h : HitTarget) : Collected :=
  if !o.exportInvisible && !h.is_visible then .none
  else
    match if h.is_visible then E.S.hitTarget h else none with
    | none => .none
    | some m =>
      let group := itemGroup E (.hitTarget h) h.shared
      ⟨[group], partMesh h.name "" (some m) (fun n => { n with
        material := nonEmpty h.material
        texture := nonEmpty h.image
        layer := group.layer
        translation := some (gltfPoint o.units h.position.x h.position.y h.position.z)
        visible := h.is_visible
        group := some h.name }), false⟩

/-- gates, /repo/src/vpx/export/gltf_export.rs:1343-1407; `build_gate_meshes` makes no mesh of a hidden gate,
/repo/src/vpx/mesh/gates/mod.rs:180-185 -/
def collectGate (E : GltfEnv) (fuel : Nat) (o : GltfOptions) (vpx : VPX) (g : Gate) : Res Collected := do
  if !o.exportInvisible && !g.is_visible then pure .none
  else
    let h ← surfaceHeight fuel g.surface g.center.x g.center.y vpx.gameitems
    match if g.is_visible then E.S.gate g else none with
    | none => pure .none
    | some (bracket, wire) =>
      let group := itemGroup E (.gate g) g.shared
      let t := some (gltfPoint o.units g.center.x g.center.y (h +ᶠ g.height))
      pure ⟨[group],
        partMesh g.name "Bracket" bracket (fun n => { n with
          material := nonEmpty g.material
          layer := group.layer
          translation := t
          visible := g.is_visible
          group := some g.name }) ++
        partMesh g.name "Wire" (some wire) (fun n => { n with
          material := nonEmpty g.material
          layer := group.layer
          translation := t
          scale := some ⟨g.length, g.length, g.length⟩
          visible := g.is_visible
          group := some g.name }), false⟩

/-- triggers, /repo/src/vpx/export/gltf_export.rs:1408-1443; `build_trigger_mesh` makes no mesh of a hidden trigger,
/repo/src/vpx/mesh/triggers/mod.rs:130-133 -/
def collectTrigger (E : GltfEnv) (fuel : Nat) (o : GltfOptions) (vpx : VPX) (t : Trigger) : Res Collected := do
  if !o.exportInvisible && !t.is_visible then pure .none
  else
    let h ← surfaceHeight fuel t.surface t.center.x t.center.y vpx.gameitems
    match if t.is_visible then E.S.trigger t else none with
    | none => pure .none
    | some m =>
      let group := itemGroup E (.trigger t) t.shared
      pure ⟨[group], partMesh t.name "" (some m) (fun n => { n with
        material := nonEmpty t.material
        layer := group.layer
        translation := some (gltfPoint o.units t.center.x t.center.y h)
        visible := t.is_visible
        group := some t.name }), false⟩

/-- lights, /repo/src/vpx/export/gltf_export.rs:1444-1560; 0.2, 0.094, 0.1 and 0.3 as bits -/
def collectLight (E : GltfEnv) (fuel : Nat) (o : GltfOptions) (vpx : VPX) (l : Light) : Res Collected := do
  if l.is_backglass then pure .none
  else
    let h ← surfaceHeight fuel l.surface l.center.x l.center.y vpx.gameitems
    let visible := l.visible.getD true
    let group := itemGroup E (.light l) l.shared
    let t := some (gltfPoint o.units l.center.x l.center.y h)
    let bulbs := (if lightShowBulbMesh l vpx.version then E.S.light l else none).getD (none, none)
    let part := fun (suffix : String) (m : Option RawMesh) (tint : Rgba) (texture : Option Str) (t : Option Vec3) =>
      partMesh l.name suffix m (fun n => { n with
        texture := texture
        tint := some tint
        layer := group.layer
        translation := t
        visible := visible
        group := some l.name })
    let insert := match E.S.insert l vpx.gamedata.dims with
      | none => []
      | some (m, c) =>
        part "_insert" (some m) (colorTint l.color 0x3e99999a)
          (if !l.is_bulb_light && !l.image.isEmpty then some l.image else none)
          (some (gltfPoint o.units c.x c.y (h +ᶠ f0p1)))
    pure ⟨[group],
      part "_bulb" bulbs.1 ⟨f32One, f32One, f32One, 0x3e4ccccd⟩ none t ++
      part "_socket" bulbs.2 ⟨0x3dc08312, 0x3dc08312, 0x3dc08312, f32One⟩ none t ++ insert, false⟩

/-- plungers, /repo/src/vpx/export/gltf_export.rs:1561-1674; `build_plunger_meshes` makes no mesh of a hidden plunger,
/repo/src/vpx/mesh/plungers/mod.rs:949-958 -/
def collectPlunger (E : GltfEnv) (fuel : Nat) (o : GltfOptions) (vpx : VPX) (p : Plunger) : Res Collected := do
  if !o.exportInvisible && !p.is_visible then pure .none
  else
    let h ← surfaceHeight fuel p.surface p.center.x p.center.y vpx.gameitems
    let m := if p.is_visible then E.S.plunger p else ⟨none, none, none, none, none⟩
    let group := itemGroup E (.plunger p) p.shared
    let t := some (gltfPoint o.units p.center.x p.center.y (h +ᶠ p.z_adjust))
    let part := fun (suffix : String) (mesh : Option RawMesh) =>
      partMesh p.name suffix mesh (fun n => { n with
        material := nonEmpty p.material
        texture := nonEmpty p.image
        layer := group.layer
        translation := t
        visible := p.is_visible
        group := some p.name })
    pure ⟨[group], part "Flat" m.flat_rod ++ part "Rod" m.rod ++ part "Spring" m.spring ++ part "Ring" m.ring ++
      part "Tip" m.tip, false⟩

/-- the colour of a kicker, /repo/src/vpx/export/gltf_export.rs:1731-1750 -/
def kickerColor : KickerType → Option Rgba
  | .Cup | .Cup2 => some ⟨0x3f400000, 0x3f400000, 0x3f47ae14, f32One⟩
  | .Williams => some ⟨0x3f3851ec, 0x3f07ae14, 0x3e800000, f32One⟩
  | .Gottlieb => some ⟨0x3ee66666, 0x3ed70a3d, 0x3ecccccd, f32One⟩
  | .Hole | .HoleSimple => some ⟨0x3eb851ec, 0x3e800000, 0x3e19999a, f32One⟩
  | .Invisible => none

/-- kickers, /repo/src/vpx/export/gltf_export.rs:1675-1779 -/
def collectKicker (E : GltfEnv) (fuel : Nat) (o : GltfOptions) (vpx : VPX) (k : Kicker) : Res Collected := do
  if k.kicker_type = .Invisible then pure .none
  else
    let h ← surfaceHeight fuel k.surface k.center.x k.center.y vpx.gameitems
    let m := E.S.kicker k
    let group := itemGroup E (.kicker k) k.shared
    let part := fun (suffix : String) (mesh : Option RawMesh) (tint : Option Rgba) =>
      partMesh k.name suffix mesh (fun n => { n with
        material := nonEmpty k.material
        tint := tint
        layer := group.layer
        translation := some (gltfPoint o.units k.center.x k.center.y h)
        group := some k.name })
    pure ⟨[group], part "Plate" m.1 (some ⟨0x3ca3d70a, 0x3ca3d70a, 0x3ca3d70a, f32One⟩) ++
      part "Kicker" m.2 (kickerColor k.kicker_type), false⟩

/-- decals, /repo/src/vpx/export/gltf_export.rs:1780-1828; 0.2 as bits -/
def collectDecal (E : GltfEnv) (fuel : Nat) (o : GltfOptions) (vpx : VPX) (d : Decal) : Res Collected := do
  let h ← surfaceHeight fuel d.surface d.center.x d.center.y vpx.gameitems
  match E.S.decal d with
  | none => pure .none
  | some m =>
    let group := itemGroup E (.decal d) d.shared
    pure ⟨[group], partMesh d.name "" (some m) (fun n => { n with
      material := nonEmpty d.material
      texture := nonEmpty d.image
      layer := group.layer
      translation := some (gltfPoint o.units d.center.x d.center.y (h +ᶠ 0x3e4ccccd))
      group := some d.name }), false⟩

/-- balls, /repo/src/vpx/export/gltf_export.rs:1829-1909 -/
def collectBall (E : GltfEnv) (o : GltfOptions) (vpx : VPX) (b : Ball) : Collected :=
  let g := vpx.gamedata
  let group := itemGroup E (.ball b) b.shared
  let image := if b.image_decal.isEmpty then nonEmpty g.ball_image_front else some b.image_decal
  let decal := b.decal_mode || g.ball_decal_mode
  let c := b.color
  ⟨[group], partMesh b.name "" (some (E.S.ball b)) (fun n => { n with
    texture := if decal then image else none
    tint := if c.r == 255 && c.g == 255 && c.b == 255 then none else some (colorTint c f32One)
    layer := group.layer
    isBall := true
    roughnessTexture := if decal then none else image
    translation := some (gltfPoint o.units b.pos.x b.pos.y b.pos.z)
    group := some b.name }), false⟩

/-- the arms of `collect_meshes`, /repo/src/vpx/export/gltf_export.rs:802-1912 -/
def collectItem (E : GltfEnv) (fuel : Nat) (o : GltfOptions) (vpx : VPX) : GameItemEnum → Res Collected
  | .primitive p => collectPrimitive E o vpx p
  | .wall w => collectWall E fuel o vpx w
  | .ramp r => collectRamp E fuel o vpx r
  | .rubber r => collectRubber E fuel o vpx r
  | .flasher f => .ok (collectFlasher E o vpx f)
  | .flipper f => .ok (collectFlipper E o f)
  | .bumper b => collectBumper E fuel o vpx b
  | .spinner s => collectSpinner E fuel o vpx s
  | .hitTarget h => .ok (collectHitTarget E o h)
  | .gate g => collectGate E fuel o vpx g
  | .trigger t => collectTrigger E fuel o vpx t
  | .light l => collectLight E fuel o vpx l
  | .plunger p => collectPlunger E fuel o vpx p
  | .kicker k => collectKicker E fuel o vpx k
  | .decal d => collectDecal E fuel o vpx d
  | .ball b => .ok (collectBall E o vpx b)
  | _ => .ok .none

/-- `build_implicit_playfield_mesh`, /repo/src/vpx/export/gltf_export.rs:532-552 -/
def implicitPlayfield (g : GameData) : NamedMesh :=
  { NamedMesh.of "playfield_mesh".toList (playfieldMesh g.left g.top g.right g.bottom) with
    material := some g.playfieldMaterial
    texture := nonEmpty g.image }

/-- `collect_meshes`, /repo/src/vpx/export/gltf_export.rs:778-1920: the meshes and the groups, each in the order of
the items -/
def collectMeshes (E : GltfEnv) (fuel : Nat) (o : GltfOptions) (vpx : VPX) : Res (List NamedMesh × List ItemGroup) := do
  let parts ← vpx.gameitems.mapM (collectItem E fuel o vpx)
  let meshes := parts.flatMap (·.meshes)
  let groups := parts.flatMap (·.groups)
  pure (if parts.any (·.playfield) then meshes else meshes ++ [implicitPlayfield vpx.gamedata], groups)

/-! ### Materials -/

/-- insertion into a map: the old value of the key is gone (used in /repo/src/vpx/export/gltf_export.rs:385-437) -/
def mapInsert {α : Type} (m : List (Str × α)) (k : Str) (v : α) : List (Str × α) :=
  m.filter (fun e => e.1 != k) ++ [(k, v)]

/-- the value of a key (used in /repo/src/vpx/export/gltf_export.rs:385-437) -/
def mapGet {α : Type} (m : List (Str × α)) (k : Str) : Option α := (m.find? fun e => e.1 == k).map (·.2)

/-- a material of the new kind, /repo/src/vpx/export/gltf_export.rs:391-412 -/
def Material.gltf (m : Material) : GltfMaterial where
  name := m.name
  color := colorTint m.base_color (if m.opacity_active then m.opacity else f32One)
  metallic := if m.type_ = .Metal then f32One else 0
  roughness := f32One -ᶠ m.roughness
  opacityActive := m.opacity_active

/-- a material of the old kind, /repo/src/vpx/export/gltf_export.rs:415-434 -/
def SaveMaterial.gltf (m : SaveMaterial) : GltfMaterial where
  name := m.name
  color := colorTint m.base_color (if m.opacity_active_edge_alpha &&& 1 != 0 then m.opacity else f32One)
  metallic := if m.is_metal then f32One else 0
  roughness := f32One -ᶠ m.roughness
  opacityActive := m.opacity_active_edge_alpha &&& 1 != 0

/-- `collect_materials`, /repo/src/vpx/export/gltf_export.rs:385-438: the map, in any order -/
def collectMaterials (g : GameData) : List (Str × GltfMaterial) :=
  match g.materials with
  | some mats => mats.foldl (fun m x => mapInsert m x.name x.gltf) []
  | none => g.materials_old.foldl (fun m x => mapInsert m x.name x.gltf) []

end
end Vpin
