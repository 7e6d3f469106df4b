import Verif.Model.GltfCollect
import Verif.Model.Gltf
import Verif.Model.Compact
import Verif.Spec.GltfFile
/-
/repo/src/vpx/export/gltf_export.rs, second part: the glTF file of the collected meshes, groups and materials.

The parts of the JSON document are first made as the records of `Gltf.File`, then written as JSON. Hash maps are lists
of keys and values; the order in which two of them are walked is a parameter of the environment. `uri` is set
afterwards by `export_gltf`. Warnings are left out.
-/
namespace Vpin
open Gltf (Num)

/-! ### Writing the JSON -/

/-- an object; members without a value are left out (used in /repo/src/vpx/export/gltf_export.rs:1922-2989) -/
def members (l : List (Key × Option J)) : J := .obj (l.filterMap fun m => m.2.map fun j => (m.1, j))

/-- `json!(x)` of a number: `null` if it is not finite (used in /repo/src/vpx/export/gltf_export.rs:1922-2989) -/
def num (x : F32) : Num := if x.isFinite then some x else none

/-- `Serialize` and `Deserialize` of `Num` (used in /repo/src/vpx/export/gltf_export.rs:1922-2989) -/
def jNum : Num → J
  | some x => .f32 x
  | none => .null

/-- `Serialize` and `Deserialize` of `Nums` (used in /repo/src/vpx/export/gltf_export.rs:1922-2989) -/
def jNums (l : List Num) : J := .arr (l.map jNum)

/-- `Serialize` and `Deserialize` of `Nats` (used in /repo/src/vpx/export/gltf_export.rs:1922-2989) -/
def jNats (l : List Nat) : J := .arr (l.map fun (n : Nat) => .num n)

/-- `json!([v.x, v.y, v.z])` (used in /repo/src/vpx/export/gltf_export.rs:1922-2989) -/
def vec3Nums (v : Vec3) : List Num := [num v.x, num v.y, num v.z]

/-- `json!([r, g, b, a])` (used in /repo/src/vpx/export/gltf_export.rs:1922-2989) -/
def rgbaNums (c : Rgba) : List Num := [num c.r, num c.g, num c.b, num c.a]

/-- /repo/src/vpx/export/gltf_export.rs:2466-2489, and for images lines 688-692 and 2066-2070 -/
def Gltf.View.json (v : Gltf.View) : J :=
  members [(key!"buffer", some (.num 0)), (key!"byteOffset", some (.num v.offset)),
    (key!"byteLength", some (.num v.length)), (key!"target", v.target.map fun (n : Nat) => .num n)]

/-- /repo/src/vpx/export/gltf_export.rs:2492-2521 -/
def Gltf.Accessor.json (a : Gltf.Accessor) : J :=
  members [(key!"bufferView", some (.num a.view)), (key!"componentType", some (.num a.component)),
    (key!"count", some (.num a.count)), (key!"type", some (.str a.type)), (key!"min", a.min.map jNums),
    (key!"max", a.max.map jNums)]

/-- /repo/src/vpx/export/gltf_export.rs:2524-2566 -/
def Gltf.Mesh.json (m : Gltf.Mesh) : J :=
  members [(key!"name", some (.str m.name)),
    (key!"primitives", some (.arr [members [
      (key!"attributes", some (members [(key!"POSITION", some (.num m.position)), (key!"NORMAL", some (.num m.normal)),
        (key!"TEXCOORD_0", some (.num m.texcoord))])),
      (key!"indices", some (.num m.indices)), (key!"mode", some (.num m.mode)),
      (key!"material", m.material.map fun (n : Nat) => .num n)]]))]

/-- the extensions of a node (used in /repo/src/vpx/export/gltf_export.rs:1922-2989) -/
def nodeExtensions (light : Option Nat) (visible : Option Bool) : Option J :=
  if light.isSome || visible.isSome then
    some (members [
      (key!"KHR_lights_punctual", light.map fun (n : Nat) => members [(key!"light", some (.num n))]),
      (key!"KHR_node_visibility", visible.map fun b => members [(key!"visible", some (.bool b))])])
  else none

/-- nodes of meshes, /repo/src/vpx/export/gltf_export.rs:2570-2591, of lights, lines 2779-2796 and 2818-2826, of groups,
lines 2866-2870, of layers, lines 2893-2896, of cameras, /repo/src/vpx/export/camera.rs:682-689, and the root, lines
2935-2939 -/
def Gltf.Node.json (n : Gltf.Node) : J :=
  members [(key!"mesh", n.mesh.map fun (n : Nat) => .num n), (key!"name", some (.str n.name)),
    (key!"camera", n.camera.map fun (n : Nat) => .num n),
    (key!"children", n.children.map jNats), (key!"translation", n.translation.map jNums),
    (key!"rotation", n.rotation.map jNums), (key!"scale", n.scale.map jNums),
    (key!"extensions", nodeExtensions n.light n.visible), (key!"extras", n.extras)]

/-- `GltfMaterialBuilder::build`, /repo/src/gltf.rs:37-68, 93-112 and 252-254 -/
def Gltf.Material.json (m : Gltf.Material) : J :=
  members [(key!"name", some (.str m.name)),
    (key!"pbrMetallicRoughness", some (members [(key!"baseColorFactor", m.color.map jNums),
      (key!"baseColorTexture", m.texture.map fun (n : Nat) => members [(key!"index", some (.num n))]),
      (key!"metallicFactor", some (jNum m.metallic)), (key!"roughnessFactor", some (jNum m.roughness))])),
    (key!"alphaMode", m.alphaMode.map .str), (key!"doubleSided", m.doubleSided.map .bool),
    (key!"extensions", m.transmission.map fun x => members [
      (key!"KHR_materials_transmission", some (members [(key!"transmissionFactor", some (jNum x))]))])]

/-- /repo/src/vpx/export/gltf_export.rs:705-709 and 2083-2087 -/
def Gltf.Texture.json (t : Gltf.Texture) : J :=
  members [(key!"sampler", some (.num t.sampler)), (key!"source", some (.num t.source)), (key!"name", some (.str t.name))]

/-- /repo/src/vpx/export/gltf_export.rs:697-701 and 2075-2079 -/
def Gltf.Image.json (i : Gltf.Image) : J :=
  members [(key!"bufferView", some (.num i.view)), (key!"mimeType", some (.str i.mime)), (key!"name", some (.str i.name))]

/-- /repo/src/vpx/export/gltf_export.rs:673-678 and 2042-2047 -/
def Gltf.Sampler.json (s : Gltf.Sampler) : J :=
  members [(key!"magFilter", some (.num s.magFilter)), (key!"minFilter", some (.num s.minFilter)),
    (key!"wrapS", some (.num s.wrapS)), (key!"wrapT", some (.num s.wrapT))]

/-- /repo/src/vpx/export/gltf_export.rs:2672-2687 and 2753-2759 -/
def Gltf.Light.json (l : Gltf.Light) : J :=
  members [(key!"name", some (.str l.name)), (key!"type", some (.str l.type)), (key!"color", some (jNums l.color)),
    (key!"intensity", some (jNum l.intensity)), (key!"range", some (jNum l.range))]

/-- `to_gltf_camera_json`, /repo/src/vpx/export/camera.rs:669-679 -/
def Gltf.Camera.json (c : Gltf.Camera) : J :=
  members [(key!"name", some (.str c.name)), (key!"type", some (.str c.type)),
    (key!"perspective", some (members [(key!"yfov", some (jNum c.yfov)), (key!"znear", some (jNum c.znear)),
      (key!"zfar", some (jNum c.zfar))]))]

/-- its JSON value (used in /repo/src/vpx/export/gltf_export.rs:1922-2989) -/
def Gltf.Buffer.json (b : Gltf.Buffer) : J :=
  members [(key!"byteLength", some (.num b.length)), (key!"uri", b.uri.map .str)]

/-- a member that is left out if the list is empty (used in /repo/src/vpx/export/gltf_export.rs:1922-2989) -/
def jSome {α : Type} (f : α → J) (l : List α) : Option J := if l.isEmpty then none else some (.arr (l.map f))

/-- the JSON document, /repo/src/vpx/export/gltf_export.rs:2941-2985 and, for the name of the second file, lines
3190-3194 -/
def Gltf.File.json (f : Gltf.File) : J :=
  members [
    (key!"asset", some (members [(key!"version", some (.str f.version)), (key!"generator", some (.str "vpin".toList))])),
    (key!"extensionsUsed", some (.arr (f.extensionsUsed.map .str))),
    (key!"extensions", some (members [(key!"KHR_lights_punctual", some (members [
      (key!"lights", some (.arr (f.lights.map Gltf.Light.json)))]))])),
    (key!"scene", some (.num f.scene)),
    (key!"scenes", some (.arr (f.scenes.map fun l => members [(key!"nodes", some (jNats l))]))),
    (key!"nodes", some (.arr (f.nodes.map Gltf.Node.json))),
    (key!"meshes", some (.arr (f.meshes.map Gltf.Mesh.json))),
    (key!"cameras", some (.arr (f.cameras.map Gltf.Camera.json))),
    (key!"accessors", some (.arr (f.accessors.map Gltf.Accessor.json))),
    (key!"bufferViews", some (.arr (f.views.map Gltf.View.json))),
    (key!"buffers", some (.arr (f.buffers.map Gltf.Buffer.json))),
    (key!"materials", jSome Gltf.Material.json f.materials),
    (key!"textures", jSome Gltf.Texture.json f.textures),
    (key!"images", jSome Gltf.Image.json f.images),
    (key!"samplers", jSome Gltf.Sampler.json f.samplers)]

/-! ### Images and textures -/

/-- `mime_type_for_image`, /repo/src/vpx/export/gltf_export.rs:144-168 -/
def imageMime (U : Unicode) (i : ImageData) : Str :=
  let path := U.lower i.path
  let ends := fun (s : String) => s.toList.isSuffixOf path
  if i.bits.isSome then "image/png".toList
  else if ends ".png" then "image/png".toList
  else if ends ".jpg" || ends ".jpeg" then "image/jpeg".toList
  else if ends ".webp" then "image/webp".toList
  else if ends ".gif" then "image/gif".toList
  else if ends ".hdr" then "image/vnd.radiance".toList
  else if ends ".exr" then "image/x-exr".toList
  else "image/jpeg".toList

/-- `get_image_bytes`, /repo/src/vpx/export/gltf_export.rs:498-523 -/
def imageBytes (E : GltfEnv) (i : ImageData) : Res (Option Bytes) :=
  match i.jpeg with
  | some j => .ok (some j.data)
  | none =>
    match i.bits with
    | some b => E.png b i.width i.height
    | none => .ok none

/-- `image_has_transparency`, /repo/src/vpx/image.rs:567-591 -/
def imageHasTransparency (E : GltfEnv) (i : ImageData) : Bool :=
  match i.is_opaque with
  | some b => !b
  | none => E.seeThrough i

/-- `find_image_by_name`, /repo/src/vpx/export/gltf_export.rs:443-450 -/
def findImage (images : List ImageData) (name : Str) : Option ImageData :=
  if name.isEmpty then none else images.find? fun i => eqIgnoreAsciiCase i.name name

/-- the image of a texture in `image_map`, /repo/src/vpx/export/gltf_export.rs:1998-2001: of several with the same name
in lower case the last one -/
def mappedImage (U : Unicode) (images : List ImageData) (key : Str) : Option ImageData :=
  images.reverse.find? fun i => U.lower i.name == key

/-- the binary data, and the parts of the document that images and textures make,
/repo/src/vpx/export/gltf_export.rs:1922-2989 -/
structure TextureState where
  bin : Bytes
  views : List Gltf.View
  images : List Gltf.Image
  textures : List Gltf.Texture
  samplers : List Gltf.Sampler

/-- at first there is nothing (used in /repo/src/vpx/export/gltf_export.rs:1922-2989) -/
def TextureState.empty : TextureState := ⟨[], [], [], [], []⟩

/-- the one kind of sampler: linear filters, repeated, /repo/src/vpx/export/gltf_export.rs:671-679 -/
def linearSampler : Gltf.Sampler := ⟨9729, 9987, 10497, 10497⟩

/-- an image and its texture, /repo/src/vpx/export/gltf_export.rs:680-709 and 2055-2087 -/
def TextureState.push (U : Unicode) (s : TextureState) (sampler : Nat) (i : ImageData) (bytes : Bytes) : TextureState :=
  { s with
    bin := pad4 (s.bin ++ bytes)
    views := s.views ++ [⟨s.bin.length, bytes.length, none⟩]
    images := s.images ++ [⟨s.views.length, imageMime U i, i.name⟩]
    textures := s.textures ++ [⟨sampler, s.images.length, i.name ++ "_texture".toList⟩] }

/-- the names of textures of a mesh, /repo/src/vpx/export/gltf_export.rs:2021-2027 -/
def NamedMesh.textureNames (m : NamedMesh) : List Str := m.texture.toList ++ m.roughnessTexture.toList

/-- one name in the first pass, /repo/src/vpx/export/gltf_export.rs:2029-2096; the second part of the state is
`texture_index_map` -/
def addTexture (E : GltfEnv) (images : List ImageData) (s : TextureState × List (Str × Nat)) (name : Str) :
    Res (TextureState × List (Str × Nat)) := do
  let key := E.U.lower name
  if (mapGet s.2 key).isSome then pure s
  else
    match mappedImage E.U images key with
    | none => pure s
    | some i =>
      match ← imageBytes E i with
      | none => pure s
      | some bytes =>
        let t := if s.1.samplers.isEmpty then { s.1 with samplers := [linearSampler] } else s.1
        pure (t.push E.U 0 i bytes, mapInsert s.2 key t.textures.length)

/-! ### Materials -/

section
variable [Arith]
open Arith

/-- `f32::clamp` (used in /repo/src/vpx/export/gltf_export.rs:640) -/
def fClamp (x lo hi : F32) : F32 :=
  let x := if x <ᶠ lo then lo else x
  if hi <ᶠ x then hi else x

/-- `calculate_playfield_roughness`, /repo/src/vpx/export/gltf_export.rs:630-646; 0.2, 0.17 and 0.03 as bits -/
def playfieldRoughness (strength fallback : F32) : F32 :=
  if f0p1 <ᶠ strength then fClamp (0x3e4ccccd -ᶠ strength *ᶠ 0x3e2e147b) 0x3cf5c28f 0x3e4ccccd else fallback

/-- `GltfMaterialBuilder::new`, /repo/src/gltf.rs:119-134 -/
def newMaterial (name : Str) (metallic roughness : F32) : Gltf.Material :=
  ⟨name, none, none, num metallic, num roughness, none, none, none⟩

/-- `alpha_blend_if`, /repo/src/gltf.rs:167-170 and 189-191 -/
def blendIf (b : Bool) (m : Gltf.Material) : Gltf.Material := if b then { m with alphaMode := some "BLEND".toList } else m

/-- the playfield material of `playfield_material`, /repo/src/vpx/export/gltf_export.rs:714-747 -/
def playfieldGltfMaterial (g : GameData) (materials : List (Str × GltfMaterial)) (texture : Nat) : Gltf.Material :=
  let fallback := ((mapGet materials g.playfieldMaterial).map (·.roughness)).getD fHalf
  { newMaterial g.playfieldMaterial 0 (playfieldRoughness g.playfield_reflection_strength fallback) with
    texture := some texture }

/-- the material of the table is see-through; 0.999 as bits, /repo/src/vpx/export/gltf_export.rs:1987 -/
def GltfMaterial.blends (m : GltfMaterial) : Bool := m.opacityActive && m.color.a <ᶠ 0x3f7fbe77

/-- one material of the table, /repo/src/vpx/export/gltf_export.rs:1965-1995; the state is `material_index_map` and the
materials -/
def addMaterial (s : List (Str × Nat) × List Gltf.Material) (m : Str × GltfMaterial) :
    List (Str × Nat) × List Gltf.Material :=
  if (mapGet s.1 m.1).isSome then s
  else (mapInsert s.1 m.1 s.2.length,
    s.2 ++ [blendIf m.2.blends { newMaterial m.2.name m.2.metallic m.2.roughness with color := some (rgbaNums m.2.color) }])

/-- the mesh gets a material with transmission, /repo/src/vpx/export/gltf_export.rs:2168-2174 -/
def NamedMesh.transmits (m : NamedMesh) : Bool :=
  !m.isBall && m.tint.isNone && m.transmission.any fun t => (0 : F32) <ᶠ t

/-- the material that the second pass makes for a mesh, /repo/src/vpx/export/gltf_export.rs:2099-2356: for the mesh
alone (`none`) or for all with the same texture (its key). 0.8, 0.15, 0.3 and 0.99 as bits. -/
def meshMaterial (E : GltfEnv) (g : GameData) (images : List ImageData) (materials : List (Str × GltfMaterial))
    (textures : List (Str × Nat)) (m : NamedMesh) : Option (Option Str × Gltf.Material) :=
  let vpxMaterial := m.material.bind (mapGet materials)
  let metallic := (vpxMaterial.map (·.metallic)).getD 0
  let plain := (vpxMaterial.map (·.roughness)).getD fHalf
  let roughness := if m.isPlayfield then playfieldRoughness g.playfield_reflection_strength plain else plain
  let textureOf := fun name => mapGet textures (E.U.lower name)
  let seeThrough := fun name => (mappedImage E.U images (E.U.lower name)).any (imageHasTransparency E)
  let materialBlends := vpxMaterial.any GltfMaterial.blends
  if m.isBall then
    some (none, { newMaterial (m.name ++ "_ball".toList) f32One 0x3e19999a with
      color := some (rgbaNums (m.tint.getD ⟨0x3f4ccccd, 0x3f4ccccd, 0x3f4ccccd, f32One⟩))
      texture := m.texture.bind textureOf })
  else
    match m.tint with
    | some tint =>
      let name := match m.texture with
        | some t => if (textureOf t).isSome then m.name ++ '_' :: t else m.name ++ "_color".toList
        | none => m.name ++ "_color".toList
      some (none, blendIf true { newMaterial name metallic roughness with
        color := some (rgbaNums tint), texture := m.texture.bind textureOf, doubleSided := some true })
    | none =>
      match m.transmission with
      | some transmission =>
        if (0 : F32) <ᶠ transmission then
          let color := (vpxMaterial.map (·.color)).getD ⟨f32One, f32One, f32One, f32One⟩
          let texture := m.texture.bind textureOf
          let base := { newMaterial (m.name ++ "_transmission".toList) metallic roughness with
            color := some (rgbaNums color)
            transmission := some (num (if texture.isSome then transmission *ᶠ 0x3e99999a else transmission)) }
          match texture with
          | some t =>
            some (none, blendIf (materialBlends || m.texture.any seeThrough)
              { base with texture := some t, doubleSided := some true })
          | none => some (none, blendIf materialBlends base)
        else none
      | none =>
        match m.texture with
        | none => none
        | some name =>
          match textureOf name with
          | none => none
          | some texture =>
            let blend := blendIf (materialBlends || seeThrough name)
            let own := m.material.getD [] ++ '_' :: name
            match vpxMaterial with
            | some v =>
              if v.color.r <ᶠ 0x3f7d70a4 || v.color.g <ᶠ 0x3f7d70a4 || v.color.b <ᶠ 0x3f7d70a4 then
                some (none, blend { newMaterial own v.metallic v.roughness with
                  color := some (rgbaNums v.color), texture := some texture, doubleSided := some true })
              else if (0 : F32) <ᶠ v.metallic then
                some (none, blend { newMaterial own v.metallic v.roughness with
                  texture := some texture, doubleSided := some true })
              else
                some (some (E.U.lower name), blend { newMaterial ("__texture__".toList ++ name) metallic roughness with
                  texture := some texture, doubleSided := some true })
            | none =>
              some (some (E.U.lower name), blend { newMaterial ("__texture__".toList ++ name) metallic roughness with
                texture := some texture, doubleSided := some true })

/-- what the second pass has made: the materials, `mesh_material_map` and `texture_material_map`,
/repo/src/vpx/export/gltf_export.rs:2019 -/
structure MaterialState where
  materials : List Gltf.Material
  ofMesh : List (Nat × Nat)
  ofTexture : List (Str × Nat)

/-- one mesh in the second pass, /repo/src/vpx/export/gltf_export.rs:2099-2356 -/
def addMeshMaterial (E : GltfEnv) (g : GameData) (images : List ImageData) (materials : List (Str × GltfMaterial))
    (textures : List (Str × Nat)) (s : MaterialState) (m : NamedMesh × Nat) : MaterialState :=
  match meshMaterial E g images materials textures m.1 with
  | none => s
  | some (none, x) => { s with materials := s.materials ++ [x], ofMesh := s.ofMesh ++ [(m.2, s.materials.length)] }
  | some (some key, x) =>
    if (mapGet s.ofTexture key).isSome then s
    else { s with materials := s.materials ++ [x], ofTexture := mapInsert s.ofTexture key s.materials.length }

/-- the material of a mesh, /repo/src/vpx/export/gltf_export.rs:2536-2561 -/
def materialOf (U : Unicode) (s : MaterialState) (names : List (Str × Nat)) (m : NamedMesh × Nat) : Option Nat :=
  match s.ofMesh.find? fun e => e.1 == m.2 with
  | some e => some e.2
  | none =>
    match m.1.texture with
    | some t => mapGet s.ofTexture (U.lower t)
    | none => m.1.material.bind (mapGet names)

/-! ### Meshes and nodes -/

/-- the nodes that hang on items (`item_group_children`), on layers (`layer_groups`) and on the root
(`root_node_indices`, `scene_root_nodes`), /repo/src/vpx/export/gltf_export.rs:2381 -/
structure Placement where
  items : List (Str × List Nat)
  layers : List (Str × List Nat)
  roots : List Nat

/-- add to the list of a key: `entry(..).or_default().push(..)` (used in /repo/src/vpx/export/gltf_export.rs:2600) -/
def pushTo (m : List (Str × List Nat)) (k : Str) (n : Nat) : List (Str × List Nat) :=
  match m with
  | [] => [(k, [n])]
  | e :: rest => if e.1 = k then (k, e.2 ++ [n]) :: rest else e :: pushTo rest k n

/-- a node in its layer or at the root (used in /repo/src/vpx/export/gltf_export.rs:1922-2989) -/
def Placement.hang (p : Placement) (layer : Option Str) (n : Nat) : Placement :=
  match layer with
  | some l => { p with layers := pushTo p.layers l n }
  | none => { p with roots := p.roots ++ [n] }

/-- the node of a mesh, /repo/src/vpx/export/gltf_export.rs:2596-2617 -/
def Placement.put (p : Placement) (m : NamedMesh) (n : Nat) : Placement :=
  match m.group with
  | some g => { p with items := pushTo p.items g n }
  | none => p.hang m.layer n

/-- positions, /repo/src/vpx/export/gltf_export.rs:2386-2392 -/
def scenePositions (u : ExportUnits) (vs : List Vertex) : Bytes :=
  vs.flatMap fun v => le32 (toUnits u v.x) ++ le32 (toUnits u v.z) ++ le32 (toUnits u v.y)

/-- normals, /repo/src/vpx/export/gltf_export.rs:2395-2404 -/
def sceneNormals (vs : List Vertex) : Bytes :=
  vs.flatMap fun v => le32 (nanZero v.nx) ++ le32 (nanZero v.nz) ++ le32 (nanZero v.ny)

/-- texture coordinates, /repo/src/vpx/export/gltf_export.rs:2407-2412 -/
def sceneTexcoords (vs : List Vertex) : Bytes := vs.flatMap fun v => le32 v.tu ++ le32 v.tv

/-- indices, /repo/src/vpx/export/gltf_export.rs:2415-2430; the conversions from `i64` cut -/
def sceneIndices (wide : Bool) (fs : List Face) : Bytes :=
  let w := if wide then 4 else 2
  fs.flatMap fun f => writeIndex w f.i0 ++ writeIndex w f.i2 ++ writeIndex w f.i1

/-- the smallest and largest coordinates, /repo/src/vpx/export/gltf_export.rs:2440-2463 -/
def sceneBounds (u : ExportUnits) (vs : List Vertex) : Vec3 × Vec3 :=
  vs.foldl (fun b v =>
    let p := gltfPoint u v.x v.y v.z
    (⟨fmin b.1.x p.x, fmin b.1.y p.y, fmin b.1.z p.z⟩, ⟨fmax b.2.x p.x, fmax b.2.y p.y, fmax b.2.z p.z⟩))
    (⟨fInf, fInf, fInf⟩, ⟨fNegInf, fNegInf, fNegInf⟩)

/-- a node with a name and nothing else (used in /repo/src/vpx/export/gltf_export.rs:1922-2989) -/
def emptyNode (name : Str) : Gltf.Node := ⟨name, none, none, none, none, none, none, none, none, none⟩

/-- the node of a mesh, /repo/src/vpx/export/gltf_export.rs:2569-2591 -/
def meshNode (m : NamedMesh) (i : Nat) : Gltf.Node :=
  { emptyNode m.name with
    mesh := some i
    translation := m.translation.map vec3Nums
    scale := m.scale.map vec3Nums
    visible := if m.visible then none else some false }

/-- what the loop over the meshes has made (used in /repo/src/vpx/export/gltf_export.rs:1922-2989) -/
structure MeshState where
  bin : Bytes
  views : List Gltf.View
  accessors : List Gltf.Accessor
  meshes : List Gltf.Mesh
  nodes : List Gltf.Node
  place : Placement

/-- one mesh, /repo/src/vpx/export/gltf_export.rs:2372-2618 -/
def addMesh (u : ExportUnits) (material : NamedMesh × Nat → Option Nat) (s : MeshState) (m : NamedMesh × Nat) :
    MeshState :=
  let vs := m.1.vertices
  let wide := vs.length > 65535
  let positions := scenePositions u vs
  let normals := sceneNormals vs
  let texcoords := sceneTexcoords vs
  let indices := sceneIndices wide m.1.faces
  let o := s.bin.length
  let v := s.views.length
  let a := s.accessors.length
  let b := sceneBounds u vs
  { bin := s.bin ++ positions ++ normals ++ texcoords ++ indices
    views := s.views ++ [⟨o, positions.length, some 34962⟩, ⟨o + positions.length, normals.length, some 34962⟩,
      ⟨o + positions.length + normals.length, texcoords.length, some 34962⟩,
      ⟨o + positions.length + normals.length + texcoords.length, indices.length, some 34963⟩]
    accessors := s.accessors ++ [⟨v, 5126, vs.length, "VEC3".toList, some (vec3Nums b.1), some (vec3Nums b.2)⟩,
      ⟨v + 1, 5126, vs.length, "VEC3".toList, none, none⟩, ⟨v + 2, 5126, vs.length, "VEC2".toList, none, none⟩,
      ⟨v + 3, if wide then 5125 else 5123, m.1.faces.length * 3, "SCALAR".toList, none, none⟩]
    meshes := s.meshes ++ [⟨m.1.name, a, a + 1, a + 2, a + 3, 4, material m⟩]
    nodes := s.nodes ++ [meshNode m.1 m.2]
    place := s.place.put m.1 s.nodes.length }

/-! ### Lights -/

/-- `calculate_light_range`, /repo/src/vpx/export/gltf_export.rs:758-775 -/
def lightRange (u : ExportUnits) (l : Light) : F32 :=
  if l.drag_points.isEmpty then toUnits u l.falloff_radius
  else
    let far := (l.drag_points.map fun p =>
      let dx := p.x -ᶠ l.center.x
      let dy := p.y -ᶠ l.center.y
      dx *ᶠ dx +ᶠ dy *ᶠ dy).foldl fmax 0
    toUnits u (sqrt far)

/-- the lights of the general illumination, /repo/src/vpx/export/gltf_export.rs:2713-2724 -/
def isGiLight (U : Unicode) : GameItemEnum → Option Light
  | .light l => if l.is_backglass then none else if "gi".toList.isPrefixOf (U.lower l.name) then some l else none
  | _ => none

/-- the place of such a light, /repo/src/vpx/export/gltf_export.rs:2726-2749; 0.001 as bits -/
def giHeight (fuel : Nat) (vpx : VPX) (l : Light) : Res F32 := do
  let h ← surfaceHeight fuel l.surface l.center.x l.center.y vpx.gameitems
  let offset := (lightHeight l vpx.version).getD 0
  pure (h +ᶠ if offset.abs <ᶠ 0x3a83126f then fTen /ᶠ ExportUnits.mm.scale else offset)

/-- a colour without alpha (used in /repo/src/vpx/export/gltf_export.rs:1922-2989) -/
def colorNums (c : Color) : List Num := [num (colorPart c.r), num (colorPart c.g), num (colorPart c.b)]

/-- such a light and its node, /repo/src/vpx/export/gltf_export.rs:2751-2774 and 2812-2826; 0.01 as bits -/
def giLight (fuel : Nat) (u : ExportUnits) (vpx : VPX) (l : Light × Nat) : Res (Gltf.Light × Gltf.Node) := do
  let z ← giHeight fuel vpx l.1
  pure (⟨l.1.name, "point".toList, colorNums l.1.color, num (fClamp (l.1.intensity *ᶠ f0p1) 0x3c23d70a fTen),
      num (lightRange u l.1)⟩,
    { emptyNode (l.1.name ++ "_light".toList) with
      translation := some (vec3Nums (gltfPoint u l.1.center.x l.1.center.y z))
      light := some (l.2 + 2) })

/-- the lights of the table, /repo/src/vpx/export/gltf_export.rs:2625-2687; 0.001 and 100.0 as bits -/
def tableLight (u : ExportUnits) (g : GameData) (name : String) : Gltf.Light :=
  let r := colorPart g.light0_emission.r
  let gr := colorPart g.light0_emission.g
  let b := colorPart g.light0_emission.b
  let brightness := (r +ᶠ gr +ᶠ b) /ᶠ fThree
  ⟨name.toList, "point".toList, [num r, num gr, num b],
    num (g.light_emission_scale *ᶠ g.global_emission_scale *ᶠ 0x3a83126f *ᶠ brightness),
    num (fmin (toUnits u g.light_range) 0x42c80000)⟩

/-- their nodes, /repo/src/vpx/export/gltf_export.rs:2631-2636 and 2779-2796; 1/3 and 2/3 as bits -/
def tableLightNode (u : ExportUnits) (g : GameData) (name : String) (part : F32) (i : Nat) : Gltf.Node :=
  { emptyNode name.toList with
    translation := some (vec3Nums ⟨toUnits u ((g.left +ᶠ g.right) /ᶠ fTwo), toUnits u g.light_height,
      toUnits u (g.bottom *ᶠ part)⟩)
    light := some i }

/-! ### Groups and layers -/

/-- `nodes[i]["extras"] = ..` (used in /repo/src/vpx/export/gltf_export.rs:2864) -/
def setExtras (nodes : List Gltf.Node) (i : Nat) (j : J) : List Gltf.Node :=
  nodes.modify i fun n => { n with extras := some j }

/-- one group, /repo/src/vpx/export/gltf_export.rs:2843-2885 -/
def addGroup (s : List Gltf.Node × Placement) (g : ItemGroup) : List Gltf.Node × Placement :=
  match mapGet s.2.items g.name with
  | none => s
  | some children =>
    let p := { s.2 with items := s.2.items.filter fun e => e.1 != g.name }
    match children with
    | [] => (s.1, p)
    | [c] => (setExtras s.1 c g.extras, p.hang g.layer c)
    | _ => (s.1 ++ [{ emptyNode g.name with children := some children, extras := some g.extras }],
        p.hang g.layer s.1.length)

/-- one layer, /repo/src/vpx/export/gltf_export.rs:2889-2898 -/
def addLayer (s : List Gltf.Node × List Nat) (l : Str × List Nat) : List Gltf.Node × List Nat :=
  (s.1 ++ [{ emptyNode l.1 with children := some l.2 }], s.2 ++ [s.1.length])

/-- the definition of a camera, /repo/src/vpx/export/camera.rs:669-679 -/
def GltfCamera.definition (c : GltfCamera) : Gltf.Camera :=
  ⟨c.name, "perspective".toList, num c.yfov, num c.znear, num c.zfar⟩

/-- its node, /repo/src/vpx/export/camera.rs:682-689 -/
def GltfCamera.node (c : GltfCamera) (i : Nat) : Gltf.Node :=
  { emptyNode c.name with
    camera := some i
    translation := some (vec3Nums c.position)
    rotation := some [num c.rotation.1, num c.rotation.2.1, num c.rotation.2.2.1, num c.rotation.2.2.2] }

/-! ### The file -/

/-- the playfield image, `playfield_material`, /repo/src/vpx/export/gltf_export.rs:658-748, and its use, lines
1948-1964 -/
def startTextures (E : GltfEnv) (g : GameData) (images : List ImageData) (materials : List (Str × GltfMaterial)) :
    Res (TextureState × List (Str × Nat) × List Gltf.Material) := do
  match findImage images g.image with
  | none => pure (.empty, [], [])
  | some i =>
    let bytes ← unwrap (← imageBytes E i)
    let s := { TextureState.empty with samplers := [linearSampler] }
    pure (s.push E.U 0 i bytes, [(g.playfieldMaterial, 0)], [playfieldGltfMaterial g materials 0])

/-- the nodes and where they hang, from the end of the loop over the meshes on,
/repo/src/vpx/export/gltf_export.rs:2776-2940: the nodes and the children of the root -/
def arrangeNodes (E : GltfEnv) (u : ExportUnits) (vpx : VPX) (groups : List ItemGroup)
    (gi : List (Light × Gltf.Node)) (nodes : List Gltf.Node) (place : Placement) : List Gltf.Node × List Nat :=
  let g := vpx.gamedata
  let n := nodes.length
  let nodes := nodes ++ [tableLightNode u g "TableLight0" 0x3eaaaaab 0, tableLightNode u g "TableLight1" 0x3f2aaaab 1]
  let place := { place with roots := place.roots ++ [n, n + 1] }
  let s := gi.foldl (fun s l =>
    (s.1 ++ [l.2], { s.2 with items := pushTo s.2.items l.1.name s.1.length })) (nodes, place)
  let s := groups.foldl addGroup s
  let t := (E.layerOrder s.2.layers).foldl addLayer (s.1, s.2.roots)
  (E.cameras vpx).zipIdx.foldl (fun s c => (s.1 ++ [c.1.node c.2], s.2 ++ [s.1.length])) t

/-- the materials of the table and the numbers of their names, /repo/src/vpx/export/gltf_export.rs:1965-1995 -/
def sceneNames (E : GltfEnv) (materials : List (Str × GltfMaterial))
    (start : TextureState × List (Str × Nat) × List Gltf.Material) : List (Str × Nat) × List Gltf.Material :=
  (E.materialOrder materials).foldl addMaterial start.2

/-- all materials, /repo/src/vpx/export/gltf_export.rs:2099-2356 -/
def sceneMaterials (E : GltfEnv) (vpx : VPX) (meshes : List NamedMesh) (materials : List (Str × GltfMaterial))
    (start : TextureState × List (Str × Nat) × List Gltf.Material) (textured : TextureState × List (Str × Nat)) :
    MaterialState :=
  meshes.zipIdx.foldl (addMeshMaterial E vpx.gamedata vpx.images materials textured.2)
    ⟨(sceneNames E materials start).2, [], []⟩

/-- all meshes, /repo/src/vpx/export/gltf_export.rs:2358-2618 -/
def sceneMeshes (E : GltfEnv) (u : ExportUnits) (vpx : VPX) (meshes : List NamedMesh)
    (materials : List (Str × GltfMaterial)) (start : TextureState × List (Str × Nat) × List Gltf.Material)
    (textured : TextureState × List (Str × Nat)) : MeshState :=
  meshes.zipIdx.foldl
    (addMesh u (materialOf E.U (sceneMaterials E vpx meshes materials start textured) (sceneNames E materials start).1))
    ⟨textured.1.bin, textured.1.views, [], [], [], ⟨[], [], []⟩⟩

/-- the document and the data, /repo/src/vpx/export/gltf_export.rs:2620-2989 -/
def sceneFile (E : GltfEnv) (u : ExportUnits) (vpx : VPX) (meshes : List NamedMesh)
    (groups : List ItemGroup) (materials : List (Str × GltfMaterial))
    (start : TextureState × List (Str × Nat) × List Gltf.Material) (textured : TextureState × List (Str × Nat))
    (gi : List (Gltf.Light × Gltf.Node)) : Gltf.File × Bytes :=
  let g := vpx.gamedata
  let s := sceneMeshes E u vpx meshes materials start textured
  let lights := vpx.gameitems.filterMap (isGiLight E.U)
  let arranged := arrangeNodes E u vpx groups (lights.zip (gi.map (·.2))) s.nodes s.place
  let bin := pad4 s.bin
  ({
    version := "2.0".toList
    extensionsUsed := "KHR_lights_punctual".toList ::
      ((if meshes.any NamedMesh.transmits then ["KHR_materials_transmission".toList] else []) ++
      (if meshes.any (fun m => !m.visible) then ["KHR_node_visibility".toList] else []))
    lights := [tableLight u g "TableLight0", tableLight u g "TableLight1"] ++ gi.map (·.1)
    scene := 0
    scenes := [[arranged.1.length]]
    nodes := arranged.1 ++ [{ emptyNode (if g.name.isEmpty then "Table".toList else g.name) with
      children := some arranged.2, extras := some (E.tableExtras g) }]
    meshes := s.meshes
    cameras := (E.cameras vpx).map GltfCamera.definition
    accessors := s.accessors
    views := s.views
    buffers := [⟨bin.length, none⟩]
    materials := (sceneMaterials E vpx meshes materials start textured).materials
    textures := textured.1.textures
    images := textured.1.images
    samplers := textured.1.samplers }, bin)

/-- `build_combined_gltf_payload`, /repo/src/vpx/export/gltf_export.rs:1922-2989 -/
def buildScene (E : GltfEnv) (fuel : Nat) (u : ExportUnits) (vpx : VPX) (meshes : List NamedMesh)
    (groups : List ItemGroup) (materials : List (Str × GltfMaterial)) : Res (Gltf.File × Bytes) := do
  if meshes.isEmpty then Except.error .io
  else
    let start ← startTextures E vpx.gamedata vpx.images materials
    let textured ← (meshes.flatMap NamedMesh.textureNames).foldlM (addTexture E vpx.images) (start.1, [])
    let gi ← (vpx.gameitems.filterMap (isGiLight E.U)).zipIdx.mapM (giLight fuel u vpx)
    pure (sceneFile E u vpx meshes groups materials start textured gi)

/-- the document of `export_gltf`, /repo/src/vpx/export/gltf_export.rs:3143-3179 -/
def gltfDocument (E : GltfEnv) (fuel : Nat) (o : GltfOptions) (vpx : VPX) : Res (Gltf.File × Bytes) := do
  let (meshes, groups) ← collectMeshes E fuel o vpx
  buildScene E fuel o.units vpx meshes groups (collectMaterials vpx.gamedata)

/-- `export_gltf`, /repo/src/vpx/export/gltf_export.rs:3137-3210: the files that are written, in this order, by their
names in the directory of `file`. `write_glb`, lines 2992-3030, is `write_glb_payload` of /repo/src/vpx/gltf.rs
again. -/
def exportGltf (E : GltfEnv) (JT : JsonText) (fuel : Nat) (o : GltfOptions) (vpx : VPX) (file : Str) :
    Res (List (Str × Bytes)) := do
  let (doc, bin) ← gltfDocument E fuel o vpx
  match o.format with
  | .glb => pure [(file, writeGlb JT ⟨doc.json, bin⟩)]
  | .gltf =>
    let binName := fileStem file ++ ".bin".toList
    let doc := { doc with buffers := doc.buffers.map fun (b : Gltf.Buffer) => { b with uri := some binName } }
    pure [(binName, bin), (file, JT.print doc.json)]

end
end Vpin
