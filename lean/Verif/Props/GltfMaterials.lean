import Verif.Lemmas.GltfMaterials
import Verif.Lemmas.GltfSample
import Verif.Spec.GltfMaterials
import Verif.Props.GltfScene
/-
The materials and textures of the glTF file of a table (C78): which image, colour and surface a collected mesh has in
the file.
-/
namespace Vpin
section
variable [Arith]
open Arith Scene
open Gltf (File)

/-! ### Names -/

omit [Arith] in
theorem mappedImage_of {E : GltfEnv} {vpx : VPX} {name : Str} {i : ImageData} (h : TextureImage E vpx name i) :
    mappedImage E.U vpx.images (E.U.lower name) = some i := by
  obtain ⟨a, b, e, h1, h2⟩ := h
  exact find_last e (by simpa using h1) fun y hy => by simpa using h2 y hy

omit [Arith] in
theorem imageBytes_of {E : GltfEnv} {i : ImageData} {bytes : Bytes} (h : ImageFile E i bytes) :
    imageBytes E i = .ok (some bytes) := by
  unfold imageBytes
  rcases h with ⟨j, hj, rfl⟩ | ⟨hj, b, hb, hp⟩
  · rw [hj]
  · rw [hj, hb]
    exact hp

theorem materials_of {g : GameData} {name : Str} {m : Material} (h : TableMaterial g name m) :
    mapGet (collectMaterials g) name = some m.gltf ∧ m.name = name := by
  obtain ⟨l, hl, a, b, e, h1, h2⟩ := h
  refine ⟨?_, h1⟩
  unfold collectMaterials
  rw [hl]
  dsimp only
  have := mapOf_get (fun x : Material => x.name) Material.gltf l [] name
  rw [find_last e (by simpa using h1) fun y hy => by simpa using h2 y hy] at this
  exact this

theorem materials_of_old {g : GameData} {name : Str} {m : SaveMaterial} (h : OldTableMaterial g name m) :
    mapGet (collectMaterials g) name = some m.gltf ∧ m.name = name := by
  obtain ⟨hg, a, b, e, h1, h2⟩ := h
  refine ⟨?_, h1⟩
  unfold collectMaterials
  rw [hg]
  dsimp only
  have := mapOf_get (fun x : SaveMaterial => x.name) SaveMaterial.gltf g.materials_old [] name
  rw [find_last e (by simpa using h1) fun y hy => by simpa using h2 y hy] at this
  exact this

theorem materials_none {g : GameData} {name : Str} (h : NoTableMaterial g name) :
    mapGet (collectMaterials g) name = none := by
  unfold NoTableMaterial at h
  unfold collectMaterials
  cases hg : g.materials with
  | some l =>
    rw [hg] at h
    dsimp only at h ⊢
    have := mapOf_get (fun x : Material => x.name) Material.gltf l [] name
    rw [List.find?_eq_none.mpr (fun y hy => by simpa using h y (List.mem_reverse.mp hy))] at this
    exact this
  | none =>
    rw [hg] at h
    dsimp only at h ⊢
    have := mapOf_get (fun x : SaveMaterial => x.name) SaveMaterial.gltf g.materials_old [] name
    rw [List.find?_eq_none.mpr (fun y hy => by simpa using h y (List.mem_reverse.mp hy))] at this
    exact this

omit [Arith] in
theorem findImage_none {vpx : VPX} (h : ¬ HasPlayfieldImage vpx) : findImage vpx.images vpx.gamedata.image = none := by
  unfold findImage
  split
  · rfl
  · rename_i hn
    rw [List.find?_eq_none]
    intro i hi he
    exact h ⟨by simpa using hn, i, hi, he⟩

/-! ### The file -/

/-- the mesh of the file and its material, by the way the exporter found it -/
theorem scene_material {E : GltfEnv} {fuel : Nat} {o : GltfOptions} {vpx : VPX} {f : File} {bin : Bytes}
    (h : gltfDocument E fuel o vpx = .ok (f, bin)) {meshes : List NamedMesh} {groups : List ItemGroup}
    (hc : collectMeshes E fuel o vpx = .ok (meshes, groups)) :
    ∃ start textured, startTextures E vpx.gamedata vpx.images (collectMaterials vpx.gamedata) = .ok start ∧
    TexturesOf E vpx.images textured ∧
    (∀ m ∈ meshes, ∀ name, m.texture = some name ∨ m.roughnessTexture = some name → ∀ i bytes,
      mappedImage E.U vpx.images (E.U.lower name) = some i → imageBytes E i = .ok (some bytes) →
      (mapGet textured.2 (E.U.lower name)).isSome) ∧
    (∀ t i bytes, textured.1.Holds E.U t i bytes → f.textureBytes bin t = some bytes ∧
      ∃ tx im, f.textures[t]? = some tx ∧ f.images[tx.source]? = some im ∧ im.name = i.name ∧
        im.mime = imageMime E.U i) ∧
    f.materials = (sceneMaterials E vpx meshes (collectMaterials vpx.gamedata) start textured).materials ∧
    ∀ (k : Nat) (m : NamedMesh), meshes[k]? = some m → ∃ x : Gltf.Mesh, f.meshes[k]? = some x ∧ x.material = materialOf E.U
      (sceneMaterials E vpx meshes (collectMaterials vpx.gamedata) start textured)
      (sceneNames E (collectMaterials vpx.gamedata) start).1 (m, k) := by
  obtain ⟨meshes', groups', hc', hb⟩ := gltfDocument_ok h
  rw [hc] at hc'
  cases hc'
  obtain ⟨_, start, textured, gi, h1, h2, h3, hr⟩ := buildScene_ok hb
  obtain rfl : f = (sceneFile E o.units vpx meshes groups (collectMaterials vpx.gamedata) start textured gi).1 :=
    congrArg Prod.fst hr
  obtain rfl : bin = (sceneFile E o.units vpx meshes groups (collectMaterials vpx.gamedata) start textured gi).2 :=
    congrArg Prod.snd hr
  obtain ⟨t1, _, t3⟩ := scene_textures h1 h2
  refine ⟨start, textured, h1, t1, ?_, fun t i bytes hh => textureBytes_scene hh, rfl, ?_⟩
  · intro m hm name hn i bytes hi hb
    refine t3 name (List.mem_flatMap.mpr ⟨m, hm, ?_⟩) i bytes hi hb
    unfold NamedMesh.textureNames
    rcases hn with hn | hn <;> simp [hn]
  · intro k m hk
    exact ⟨_, (scene_mesh_get (E := E) (u := o.units) (vpx := vpx) (materials := collectMaterials vpx.gamedata)
      (start := start) (textured := textured) hk).1, rfl⟩

omit [Arith] in
theorem materialOfMesh_some {f : File} {k j : Nat} {x : Gltf.Mesh} {y : Gltf.Material} (h1 : f.meshes[k]? = some x)
    (h2 : x.material = some j) (h3 : f.materials[j]? = some y) : f.materialOfMesh k = some y := by
  unfold Gltf.File.materialOfMesh
  simp only [h1, h2, h3, Option.bind_eq_bind, Option.bind_some]

theorem meshMaterial_textured {E : GltfEnv} {g : GameData} {images : List ImageData}
    {materials : List (Str × GltfMaterial)} {textures : List (Str × Nat)} {m : NamedMesh} {name : Str} {t : Nat}
    (hn : m.texture = some name) (ht : mapGet textures (E.U.lower name) = some t)
    (hp : ∀ v, m.transmission = some v → (0 : F32) <ᶠ v) :
    ∃ k x, meshMaterial E g images materials textures m = some (k, x) ∧ x.texture = some t := by
  unfold meshMaterial
  dsimp only
  simp only [hn, ht, Option.bind_some]
  repeat' split
  all_goals first
    | exact ⟨_, _, rfl, rfl⟩
    | exact ⟨_, _, rfl, blendIf_texture _ _⟩
    | (simp_all; done)

/-- C78: a mesh with a texture shows the image of the table that the texture names: the bytes in the file are those of
the image -/
theorem C78_texture {E : GltfEnv} {fuel : Nat} {o : GltfOptions} {vpx : VPX} {f : File} {bin : Bytes}
    (h : gltfDocument E fuel o vpx = .ok (f, bin)) {meshes : List NamedMesh} {groups : List ItemGroup}
    (hc : collectMeshes E fuel o vpx = .ok (meshes, groups)) {k : Nat} {m : NamedMesh} (hk : meshes[k]? = some m)
    {name : Str} (hn : m.texture = some name) (hp : ∀ v, m.transmission = some v → (0 : F32) <ᶠ v)
    {i : ImageData} (hi : TextureImage E vpx name i) {bytes : Bytes} (hb : ImageFile E i bytes) :
    ∃ y t, f.materialOfMesh k = some y ∧ y.texture = some t ∧ f.textureBytes bin t = some bytes ∧
      ∃ tx im, f.textures[t]? = some tx ∧ f.images[tx.source]? = some im ∧ im.name = i.name := by
  obtain ⟨start, textured, h1, hT, hhas, hholds, hfm, hmesh⟩ := scene_material h hc
  have hi := mappedImage_of hi
  have hb := imageBytes_of hb
  obtain ⟨t, ht⟩ := Option.isSome_iff_exists.mp (hhas m (List.mem_of_getElem? hk) name (.inl hn) i bytes hi hb)
  obtain ⟨_, i', bytes', hi', hb', hh⟩ := hT.map _ t ht
  rw [hi] at hi'
  cases hi'
  rw [hb] at hb'
  cases hb'
  obtain ⟨d1, tx, im, d2, d3, d4, _⟩ := hholds t i bytes hh
  obtain ⟨x, hx, hxm⟩ := hmesh k m hk
  obtain ⟨key, y, hy, hyt⟩ := meshMaterial_textured (g := vpx.gamedata) (images := vpx.images)
    (materials := collectMaterials vpx.gamedata) hn ht hp
  have hS := scene_second (E := E) (vpx := vpx) (meshes := meshes) (materials := collectMaterials vpx.gamedata)
    (start := start) (textured := textured)
  cases key with
  | none =>
    obtain ⟨j, hj, hjm⟩ := materialOf_own hS hk hy
    exact ⟨y, t, materialOfMesh_some hx (hxm.trans hj) (by rw [hfm]; exact hjm), hyt, d1, tx, im, d2, d3, d4⟩
  | some key =>
    obtain ⟨j, k', m', y', hj, hjm, _, _, hm', _⟩ := materialOf_shared hS hk hy
    refine ⟨y', t, materialOfMesh_some hx (hxm.trans hj) (by rw [hfm]; exact hjm), ?_, d1, tx, im, d2, d3, d4⟩
    obtain ⟨n1, hn1, e1⟩ := meshMaterial_key hy
    obtain ⟨n2, hn2, e2⟩ := meshMaterial_key hm'
    rw [hn] at hn1
    cases hn1
    have hpl := meshMaterial_shared hm'
    obtain ⟨key2, y2, hy2, hyt2⟩ := meshMaterial_textured (E := E) (g := vpx.gamedata) (images := vpx.images)
      (materials := collectMaterials vpx.gamedata) (textures := textured.2) hn2 (by rw [← e2, e1]; exact ht)
      (by rw [hpl.2.2]; intro v hv; cases hv)
    rw [hm'] at hy2
    cases hy2
    exact hyt2

/-- the material of the file of a mesh without a texture -/
theorem untextured_material {E : GltfEnv} {fuel : Nat} {o : GltfOptions} {vpx : VPX} {f : File} {bin : Bytes}
    (h : gltfDocument E fuel o vpx = .ok (f, bin)) {meshes : List NamedMesh} {groups : List ItemGroup}
    (hc : collectMeshes E fuel o vpx = .ok (meshes, groups)) {k : Nat} {m : NamedMesh} (hk : meshes[k]? = some m)
    (hplain : Plain m) (ht : m.texture = none) {name : Str} (hn : m.material = some name) {v : GltfMaterial}
    (hv : mapGet (collectMaterials vpx.gamedata) name = some v)
    (hpf : HasPlayfieldImage vpx → name ≠ vpx.gamedata.playfieldMaterial) :
    f.materialOfMesh k = some (tableMaterial v) := by
  obtain ⟨start, textured, h1, hT, hhas, hholds, hfm, hmesh⟩ := scene_material h hc
  obtain ⟨x, hx, hxm⟩ := hmesh k m hk
  have hS := scene_second (E := E) (vpx := vpx) (meshes := meshes) (materials := collectMaterials vpx.gamedata)
    (start := start) (textured := textured)
  have hnone : meshMaterial E vpx.gamedata vpx.images (collectMaterials vpx.gamedata) textured.2 m = none := by
    unfold meshMaterial
    dsimp only
    rw [hplain.1, hplain.2.1, hplain.2.2, ht]
    rfl
  rw [materialOf_other hS hk (fun y hy => by rw [hnone] at hy; cases hy), ht] at hxm
  dsimp only at hxm
  rw [hn, Option.bind_some] at hxm
  have hs : mapGet start.2.1 name = none := by
    rcases startTextures_names h1 with ⟨_, rfl⟩ | ⟨i, bytes, hf, _, rfl⟩
    · rfl
    · have : HasPlayfieldImage vpx := Classical.byContradiction fun hno => by
        rw [findImage_none hno] at hf
        cases hf
      have := hpf this
      unfold mapGet
      rw [List.find?_cons_of_neg (by simpa using fun h => this h.symm)]
      rfl
  obtain ⟨j, hj, hjm⟩ := sceneNames_get (E := E) hv hs
  have hp := addMeshMaterial_prefix (E := E) (g := vpx.gamedata) (images := vpx.images)
    (materials := collectMaterials vpx.gamedata) (textures := textured.2) meshes.zipIdx
    ⟨(sceneNames E (collectMaterials vpx.gamedata) start).2, [], []⟩
  exact materialOfMesh_some hx (hxm.trans hj) (by rw [hfm]; exact prefix_get' hp hjm)

/-- C78: a mesh without a texture looks like its material in the table: colour, metal or not, roughness (`1 - x`, the
table stores smoothness), and blended if the material is see-through. The material of the playfield is excepted if the
playfield has an image. -/
theorem C78_table_material {E : GltfEnv} {fuel : Nat} {o : GltfOptions} {vpx : VPX} {f : File} {bin : Bytes}
    (h : gltfDocument E fuel o vpx = .ok (f, bin)) {meshes : List NamedMesh} {groups : List ItemGroup}
    (hc : collectMeshes E fuel o vpx = .ok (meshes, groups)) {k : Nat} {m : NamedMesh} (hk : meshes[k]? = some m)
    (hplain : Plain m) (ht : m.texture = none) {name : Str} (hn : m.material = some name) {v : Material}
    (hv : TableMaterial vpx.gamedata name v) (hpf : HasPlayfieldImage vpx → name ≠ vpx.gamedata.playfieldMaterial) :
    f.materialOfMesh k = some {
      name := name
      color := some [num (colorPart v.base_color.r), num (colorPart v.base_color.g), num (colorPart v.base_color.b),
        num (if v.opacity_active then v.opacity else f32One)]
      texture := none
      metallic := num (if v.type_ = .Metal then f32One else 0)
      roughness := num (f32One -ᶠ v.roughness)
      alphaMode := if v.opacity_active && v.opacity <ᶠ 0x3f7fbe77 then some "BLEND".toList else none
      doubleSided := none
      transmission := none } := by
  obtain ⟨h1, rfl⟩ := materials_of hv
  rw [untextured_material h hc hk hplain ht hn h1 hpf]
  unfold tableMaterial GltfMaterial.blends blendIf Material.gltf colorTint
  dsimp only
  cases v.opacity_active with
  | false => rfl
  | true =>
    simp only [Bool.true_and, if_true]
    split <;> rfl

/-- C78: the same in tables of the old kind -/
theorem C78_table_material_old {E : GltfEnv} {fuel : Nat} {o : GltfOptions} {vpx : VPX} {f : File} {bin : Bytes}
    (h : gltfDocument E fuel o vpx = .ok (f, bin)) {meshes : List NamedMesh} {groups : List ItemGroup}
    (hc : collectMeshes E fuel o vpx = .ok (meshes, groups)) {k : Nat} {m : NamedMesh} (hk : meshes[k]? = some m)
    (hplain : Plain m) (ht : m.texture = none) {name : Str} (hn : m.material = some name) {v : SaveMaterial}
    (hv : OldTableMaterial vpx.gamedata name v) (hpf : HasPlayfieldImage vpx → name ≠ vpx.gamedata.playfieldMaterial) :
    f.materialOfMesh k = some {
      name := name
      color := some [num (colorPart v.base_color.r), num (colorPart v.base_color.g), num (colorPart v.base_color.b),
        num (if v.opacity_active_edge_alpha &&& 1 != 0 then v.opacity else f32One)]
      texture := none
      metallic := num (if v.is_metal then f32One else 0)
      roughness := num (f32One -ᶠ v.roughness)
      alphaMode :=
        if v.opacity_active_edge_alpha &&& 1 != 0 && v.opacity <ᶠ 0x3f7fbe77 then some "BLEND".toList else none
      doubleSided := none
      transmission := none } := by
  obtain ⟨h1, rfl⟩ := materials_of_old hv
  rw [untextured_material h hc hk hplain ht hn h1 hpf]
  unfold tableMaterial GltfMaterial.blends blendIf SaveMaterial.gltf colorTint
  dsimp only
  cases v.opacity_active_edge_alpha &&& 1 != 0 with
  | false => rfl
  | true =>
    simp only [Bool.true_and, if_true]
    split <;> rfl

/-- a mesh with its own material -/
theorem own_material {E : GltfEnv} {fuel : Nat} {o : GltfOptions} {vpx : VPX} {f : File} {bin : Bytes}
    (h : gltfDocument E fuel o vpx = .ok (f, bin)) {meshes : List NamedMesh} {groups : List ItemGroup}
    (hc : collectMeshes E fuel o vpx = .ok (meshes, groups)) {k : Nat} {m : NamedMesh} (hk : meshes[k]? = some m)
    {P : Gltf.Material → Prop}
    (hx : ∀ textures, (∀ name, m.texture = some name → (∃ i bytes, TextureImage E vpx name i ∧ ImageFile E i bytes) →
        (mapGet textures (E.U.lower name)).isSome) →
      (∀ key t, mapGet textures key = some t → ∃ i bytes, mappedImage E.U vpx.images key = some i ∧
        imageBytes E i = .ok (some bytes)) →
      ∃ x, meshMaterial E vpx.gamedata vpx.images (collectMaterials vpx.gamedata) textures m = some (none, x) ∧ P x) :
    ∃ y, f.materialOfMesh k = some y ∧ P y := by
  obtain ⟨start, textured, h1, hT, hhas, hholds, hfm, hmesh⟩ := scene_material h hc
  obtain ⟨x, hx', hxm⟩ := hmesh k m hk
  have hS := scene_second (E := E) (vpx := vpx) (meshes := meshes) (materials := collectMaterials vpx.gamedata)
    (start := start) (textured := textured)
  obtain ⟨y, hy, hP⟩ := hx textured.2 (by
    intro name hn hi
    obtain ⟨i, bytes, hi, hb⟩ := hi
    exact hhas m (List.mem_of_getElem? hk) name (.inl hn) i bytes (mappedImage_of hi) (imageBytes_of hb)) (by
    intro key t ht
    obtain ⟨_, i, bytes, h1, h2, _⟩ := hT.map key t ht
    exact ⟨i, bytes, h1, h2⟩)
  obtain ⟨j, hj, hjm⟩ := materialOf_own hS hk hy
  exact ⟨y, materialOfMesh_some hx' (hxm.trans hj) (by rw [hfm]; exact hjm), hP⟩

/-- C78: a tinted mesh (parts of lights, flashers, kickers) has the colour and alpha of the tint, is blended and seen
from both sides -/
theorem C78_tint {E : GltfEnv} {fuel : Nat} {o : GltfOptions} {vpx : VPX} {f : File} {bin : Bytes}
    (h : gltfDocument E fuel o vpx = .ok (f, bin)) {meshes : List NamedMesh} {groups : List ItemGroup}
    (hc : collectMeshes E fuel o vpx = .ok (meshes, groups)) {k : Nat} {m : NamedMesh} (hk : meshes[k]? = some m)
    (hb : m.isBall = false) {c : Rgba} (ht : m.tint = some c) :
    ∃ y, f.materialOfMesh k = some y ∧ y.color = some [num c.r, num c.g, num c.b, num c.a] ∧
      y.alphaMode = some "BLEND".toList ∧ y.doubleSided = some true ∧ y.transmission = none := by
  refine own_material h hc hk fun textures _ _ => ?_
  unfold meshMaterial
  dsimp only
  rw [hb, if_neg (by decide), ht]
  exact ⟨_, rfl, rfl, rfl, rfl, rfl⟩

/-- C78: a ball is polished metal of its colour, or of light grey -/
theorem C78_ball {E : GltfEnv} {fuel : Nat} {o : GltfOptions} {vpx : VPX} {f : File} {bin : Bytes}
    (h : gltfDocument E fuel o vpx = .ok (f, bin)) {meshes : List NamedMesh} {groups : List ItemGroup}
    (hc : collectMeshes E fuel o vpx = .ok (meshes, groups)) {k : Nat} {m : NamedMesh} (hk : meshes[k]? = some m)
    (hb : m.isBall = true) :
    ∃ y, f.materialOfMesh k = some y ∧ y.metallic = some f32One ∧ y.roughness = some 0x3e19999a ∧
      y.alphaMode = none ∧ y.transmission = none ∧
      y.color = match m.tint with
        | some c => some [num c.r, num c.g, num c.b, num c.a]
        | none => some [some 0x3f4ccccd, some 0x3f4ccccd, some 0x3f4ccccd, some f32One] := by
  refine own_material h hc hk fun textures _ _ => ?_
  unfold meshMaterial
  dsimp only
  rw [if_pos hb]
  refine ⟨_, rfl, rfl, rfl, rfl, rfl, ?_⟩
  cases m.tint <;> rfl

/-- C78: a mesh that lets light through transmits as much as its item says, and less (0.3 as bits) if it shows an
image -/
theorem C78_transmission {E : GltfEnv} {fuel : Nat} {o : GltfOptions} {vpx : VPX} {f : File} {bin : Bytes}
    (h : gltfDocument E fuel o vpx = .ok (f, bin)) {meshes : List NamedMesh} {groups : List ItemGroup}
    (hc : collectMeshes E fuel o vpx = .ok (meshes, groups)) {k : Nat} {m : NamedMesh} (hk : meshes[k]? = some m)
    (hb : m.isBall = false) (ht : m.tint = none) {v : F32} (hv : m.transmission = some v) (hp : (0 : F32) <ᶠ v) :
    ∃ y, f.materialOfMesh k = some y ∧
      y.transmission = some (num (if y.texture.isSome then v *ᶠ 0x3e99999a else v)) ∧
      (∀ name x, m.material = some name → TableMaterial vpx.gamedata name x →
        y.color = some [num (colorPart x.base_color.r), num (colorPart x.base_color.g), num (colorPart x.base_color.b),
          num (if x.opacity_active then x.opacity else f32One)] ∧
        y.metallic = num (if x.type_ = .Metal then f32One else 0)) := by
  refine own_material h hc hk fun textures _ _ => ?_
  have hmat : ∀ name x, m.material = some name → TableMaterial vpx.gamedata name x →
      m.material.bind (mapGet (collectMaterials vpx.gamedata)) = some x.gltf := by
    intro name x h1 h2
    rw [h1, Option.bind_some, (materials_of h2).1]
  unfold meshMaterial
  dsimp only
  rw [hb, if_neg (by decide), ht, hv]
  dsimp only
  rw [if_pos hp]
  cases hx : m.texture.bind (fun name => mapGet textures (E.U.lower name)) with
  | none =>
    dsimp only
    refine ⟨_, rfl, ?_, ?_⟩
    · rw [blendIf_transmission, blendIf_texture]
      rfl
    · intro name x h1 h2
      rw [hmat name x h1 h2]
      unfold blendIf
      split <;> exact ⟨rfl, rfl⟩
  | some t =>
    dsimp only
    refine ⟨_, rfl, ?_, ?_⟩
    · rw [blendIf_transmission, blendIf_texture]
    · intro name x h1 h2
      rw [hmat name x h1 h2]
      unfold blendIf
      split <;> exact ⟨rfl, rfl⟩

/-- C78: a mesh with a texture whose material in the table is coloured (some channel below 0.99) or metal keeps the
colour as a factor, the metal and the roughness, and is blended if the material or the image is see-through -/
theorem C78_texture_and_material {E : GltfEnv} {fuel : Nat} {o : GltfOptions} {vpx : VPX} {f : File} {bin : Bytes}
    (h : gltfDocument E fuel o vpx = .ok (f, bin)) {meshes : List NamedMesh} {groups : List ItemGroup}
    (hc : collectMeshes E fuel o vpx = .ok (meshes, groups)) {k : Nat} {m : NamedMesh} (hk : meshes[k]? = some m)
    (hplain : Plain m) {name : Str} (hn : m.texture = some name) {i : ImageData} (hi : TextureImage E vpx name i)
    {bytes : Bytes} (hb : ImageFile E i bytes) {mat : Str} (hmat : m.material = some mat) {v : Material}
    (hv : TableMaterial vpx.gamedata mat v)
    (hcol : colorPart v.base_color.r <ᶠ 0x3f7d70a4 ∨ colorPart v.base_color.g <ᶠ 0x3f7d70a4 ∨
      colorPart v.base_color.b <ᶠ 0x3f7d70a4 ∨ (v.type_ = .Metal ∧ (0 : F32) <ᶠ f32One)) :
    ∃ y, f.materialOfMesh k = some y ∧
      (colorPart v.base_color.r <ᶠ 0x3f7d70a4 ∨ colorPart v.base_color.g <ᶠ 0x3f7d70a4 ∨
        colorPart v.base_color.b <ᶠ 0x3f7d70a4 →
        y.color = some [num (colorPart v.base_color.r), num (colorPart v.base_color.g), num (colorPart v.base_color.b),
          num (if v.opacity_active then v.opacity else f32One)]) ∧
      y.metallic = num (if v.type_ = .Metal then f32One else 0) ∧ y.roughness = num (f32One -ᶠ v.roughness) ∧
      (y.alphaMode = some "BLEND".toList ↔ (v.opacity_active = true ∧ v.opacity <ᶠ 0x3f7fbe77) ∨ SeeThrough E i) ∧
      y.doubleSided = some true := by
  refine own_material h hc hk fun textures hhas hmap => ?_
  obtain ⟨t, ht⟩ := Option.isSome_iff_exists.mp (hhas name hn ⟨i, bytes, hi, hb⟩)
  have hm : m.material.bind (mapGet (collectMaterials vpx.gamedata)) = some v.gltf := by
    rw [hmat, Option.bind_some, (materials_of hv).1]
  have hsee : (mappedImage E.U vpx.images (E.U.lower name)).any (imageHasTransparency E) = true ↔ SeeThrough E i := by
    rw [mappedImage_of hi]
    unfold imageHasTransparency SeeThrough
    simp only [Option.any_some]
    cases i.is_opaque with
    | none => simp
    | some b => cases b <;> simp
  have hbl : v.gltf.blends = true ↔ (v.opacity_active = true ∧ v.opacity <ᶠ 0x3f7fbe77) := by
    unfold GltfMaterial.blends Material.gltf colorTint
    dsimp only
    cases v.opacity_active <;> simp
  have halpha : ∀ (b : Bool) (x : Gltf.Material), x.alphaMode = none →
      ((blendIf b x).alphaMode = some "BLEND".toList ↔ b = true) := by
    intro b x hx
    unfold blendIf
    cases b with
    | true => exact ⟨fun _ => rfl, fun _ => rfl⟩
    | false =>
      rw [if_neg (by decide), hx]
      exact ⟨fun h => (by cases h), fun h => (by cases h)⟩
  have hblend : ∀ (b : Bool) (x : Gltf.Material), (blendIf b x).color = x.color ∧ (blendIf b x).metallic = x.metallic ∧
      (blendIf b x).roughness = x.roughness ∧ (blendIf b x).doubleSided = x.doubleSided := by
    intro b x
    unfold blendIf
    split <;> exact ⟨rfl, rfl, rfl, rfl⟩
  unfold meshMaterial
  dsimp only
  rw [hplain.1, if_neg (by decide), hplain.2.1, hplain.2.2, hn, hm]
  dsimp only
  rw [ht]
  dsimp only
  by_cases hpaint : (v.gltf.color.r <ᶠ 0x3f7d70a4 || v.gltf.color.g <ᶠ 0x3f7d70a4 ||
      v.gltf.color.b <ᶠ 0x3f7d70a4) = true
  · rw [if_pos hpaint]
    refine ⟨_, rfl, ?_, ?_, ?_, ?_, ?_⟩
    · intro _
      rw [(hblend _ _).1]
      rfl
    · rw [(hblend _ _).2.1]
      rfl
    · rw [(hblend _ _).2.2.1]
      rfl
    · rw [halpha _ _ rfl, Bool.or_eq_true, Option.any_some, hbl, hsee]
    · rw [(hblend _ _).2.2.2]
  · rw [if_neg hpaint]
    have hno : ¬ (colorPart v.base_color.r <ᶠ 0x3f7d70a4 ∨ colorPart v.base_color.g <ᶠ 0x3f7d70a4 ∨
        colorPart v.base_color.b <ᶠ 0x3f7d70a4) := by
      intro hx
      refine hpaint ?_
      rw [Bool.or_eq_true, Bool.or_eq_true, or_assoc]
      exact hx
    have hmetal : v.type_ = .Metal ∧ (0 : F32) <ᶠ f32One := by
      rcases hcol with h | h | h | h
      · exact absurd (.inl h) hno
      · exact absurd (.inr (.inl h)) hno
      · exact absurd (.inr (.inr h)) hno
      · exact h
    have hmv : v.gltf.metallic = f32One := by
      unfold Material.gltf
      exact if_pos hmetal.1
    rw [if_pos (by rw [hmv]; exact hmetal.2)]
    refine ⟨_, rfl, fun hx => absurd hx hno, ?_, ?_, ?_, ?_⟩
    · rw [(hblend _ _).2.1]
      rfl
    · rw [(hblend _ _).2.2.1]
      rfl
    · rw [halpha _ _ rfl, Bool.or_eq_true, Option.any_some, hbl, hsee]
    · rw [(hblend _ _).2.2.2]

/-- C78: meshes without materials that show the same image have the same material in the file; it is white -/
theorem C78_shared {E : GltfEnv} {fuel : Nat} {o : GltfOptions} {vpx : VPX} {f : File} {bin : Bytes}
    (h : gltfDocument E fuel o vpx = .ok (f, bin)) {meshes : List NamedMesh} {groups : List ItemGroup}
    (hc : collectMeshes E fuel o vpx = .ok (meshes, groups)) {k k' : Nat} {m m' : NamedMesh} (hk : meshes[k]? = some m)
    (hk' : meshes[k']? = some m') (hu : Unpainted vpx.gamedata m) (hu' : Unpainted vpx.gamedata m') {name name' : Str}
    (hn : m.texture = some name) (hn' : m'.texture = some name') (hsame : E.U.lower name = E.U.lower name')
    {i : ImageData} (hi : TextureImage E vpx name i) {bytes : Bytes} (hb : ImageFile E i bytes) :
    ∃ x x' j y, f.meshes[k]? = some x ∧ f.meshes[k']? = some x' ∧ x.material = some j ∧ x'.material = some j ∧
      f.materials[j]? = some y ∧ y.color = none ∧ y.transmission = none ∧ y.doubleSided = some true := by
  obtain ⟨start, textured, h1, hT, hhas, hholds, hfm, hmesh⟩ := scene_material h hc
  obtain ⟨x, hx, hxm⟩ := hmesh k m hk
  obtain ⟨x', hx', hxm'⟩ := hmesh k' m' hk'
  have hS := scene_second (E := E) (vpx := vpx) (meshes := meshes) (materials := collectMaterials vpx.gamedata)
    (start := start) (textured := textured)
  obtain ⟨t, ht⟩ := Option.isSome_iff_exists.mp (hhas m (List.mem_of_getElem? hk) name (.inl hn) i bytes
    (mappedImage_of hi) (imageBytes_of hb))
  have hshared : ∀ (q : NamedMesh) (n : Str), Unpainted vpx.gamedata q → q.texture = some n →
      mapGet textured.2 (E.U.lower n) = some t → ∃ y,
      meshMaterial E vpx.gamedata vpx.images (collectMaterials vpx.gamedata) textured.2 q = some (some (E.U.lower n), y) := by
    intro q n hq hqn hqt
    have hnone : q.material.bind (mapGet (collectMaterials vpx.gamedata)) = none := by
      cases hqm : q.material with
      | none => rfl
      | some z => rw [Option.bind_some, materials_none (hq.2 z hqm)]
    unfold meshMaterial
    dsimp only
    rw [hq.1.1, if_neg (by decide), hq.1.2.1, hq.1.2.2, hqn, hnone]
    dsimp only
    rw [hqt]
    exact ⟨_, rfl⟩
  obtain ⟨y1, hy1⟩ := hshared m name hu hn ht
  obtain ⟨y2, hy2⟩ := hshared m' name' hu' hn' (by rw [← hsame]; exact ht)
  obtain ⟨j, k1, m1, z, hj, hjz, _, _, hm1, _⟩ := materialOf_shared (names := (sceneNames E
    (collectMaterials vpx.gamedata) start).1) hS hk hy1
  have hj2 : materialOf E.U (sceneMaterials E vpx meshes (collectMaterials vpx.gamedata) start textured)
      (sceneNames E (collectMaterials vpx.gamedata) start).1 (m', k') = some j := by
    rw [materialOf_other hS hk (fun y hy => by rw [hy1] at hy; cases hy), hn] at hj
    rw [materialOf_other hS hk' (fun y hy => by rw [hy2] at hy; cases hy), hn']
    dsimp only at hj ⊢
    rw [← hsame]
    exact hj
  refine ⟨x, x', j, z, hx, hx', hxm.trans hj, hxm'.trans hj2, by rw [hfm]; exact hjz, ?_⟩
  clear hj2 hj hjz hy1 hy2 hshared
  generalize E.U.lower name = key at hm1
  unfold meshMaterial at hm1
  dsimp only at hm1
  repeat' split at hm1
  all_goals first
    | (cases hm1; done)
    | (cases hm1
       unfold blendIf
       split <;> exact ⟨rfl, rfl, rfl⟩)

end

/-! ### Examples -/

section
attribute [local instance] ieeeExact
open Scene Arith

/-- a spinner plate on its material "grey", a primitive with an image, one with an image and the white metal, one with
an image and a white material -/
def materialTable : VPX :=
  { gltfTable with
    gamedata := { sceneTable.gamedata with
      materials := some [{ Material.default with name := "grey".toList, base_color := Color.rgb 1 2 3 },
        { Material.default with
          name := "grey".toList, base_color := Color.rgb 51 102 153, opacity_active := true, opacity := fHalf },
        { Material.default with name := "metal".toList, base_color := Color.rgb 255 255 255, type_ := .Metal },
        { Material.default with name := "rough".toList, base_color := Color.rgb 255 255 255 },
        { Material.default with name := "smooth".toList, base_color := Color.rgb 255 255 255, roughness := f32One }] }
    gameitems := [
      .spinner { Spinner.default with name := "S".toList, material := "grey".toList },
      .primitive { Primitive.default with name := "A".toList, sides := 3, image := "Playfield é".toList },
      .primitive { Primitive.default with
        name := "B".toList, sides := 3, image := "Playfield é".toList, material := "metal".toList },
      .primitive { Primitive.default with
        name := "C".toList, sides := 3, image := "BITMAP".toList, material := "rough".toList },
      .primitive { Primitive.default with
        name := "D".toList, sides := 3, image := "bitmap".toList, material := "smooth".toList },
      .primitive { Primitive.default with
        name := "F".toList, sides := 3, image := "missing".toList, material := "grey".toList },
      .primitive { Primitive.default with name := "G".toList, sides := 3, material := "a b".toList },
      .flasher { Flasher.default with name := "H".toList, is_visible := true }] }

def materialOut : Res (Gltf.File × Bytes) := gltfDocument gltfSample 10 .default materialTable

/-- the materials of its meshes: plate, A, B, C, D, F, G, H, the playfield -/
example : (materialOut.toOption.map fun r => (List.range 9).map fun k => (r.1.materialOfMesh k).map fun y =>
    (y.name, [y.metallic, y.roughness])) = some [
    some ("grey".toList, [some 0, some f32One]),
    some ("__texture__Playfield é".toList, [some 0, some fHalf]),
    some ("metal_Playfield é".toList, [some f32One, some f32One]),
    some ("__texture__BITMAP".toList, [some 0, some f32One]),
    some ("__texture__BITMAP".toList, [some 0, some f32One]), none,
    some ("a b".toList, [some 0, some 0x3cf5c290]),
    some ("H_color".toList, [some 0, some fHalf]),
    some ("__texture__BITMAP".toList, [some 0, some f32One])] := by decide +kernel

/-- what was collected, and the document -/
theorem material_sample : ∃ meshes groups f bin, collectMeshes gltfSample 10 .default materialTable = .ok (meshes, groups) ∧
    gltfDocument gltfSample 10 .default materialTable = .ok (f, bin) ∧
    (meshes.map fun m => (m.material.getD [], m.texture.getD [], [m.tint.isNone, m.isBall, m.transmission.isNone])) =
      [("grey".toList, [], [true, false, true]), ([], "Playfield é".toList, [true, false, true]),
       ("metal".toList, "Playfield é".toList, [true, false, true]), ("rough".toList, "BITMAP".toList, [true, false, true]),
       ("smooth".toList, "bitmap".toList, [true, false, true]), ("grey".toList, "missing".toList, [true, false, true]),
       ("a b".toList, [], [true, false, true]), ([], [], [false, false, true]),
       ("a b".toList, "Bitmap".toList, [true, false, true])] := by
  have h1 : (collectMeshes gltfSample 10 .default materialTable).toOption.map (fun r => r.1.map fun m =>
    (m.material.getD [], m.texture.getD [], [m.tint.isNone, m.isBall, m.transmission.isNone])) = some
      [("grey".toList, [], [true, false, true]), ([], "Playfield é".toList, [true, false, true]),
       ("metal".toList, "Playfield é".toList, [true, false, true]), ("rough".toList, "BITMAP".toList, [true, false, true]),
       ("smooth".toList, "bitmap".toList, [true, false, true]), ("grey".toList, "missing".toList, [true, false, true]),
       ("a b".toList, [], [true, false, true]), ([], [], [false, false, true]),
       ("a b".toList, "Bitmap".toList, [true, false, true])] := by decide +kernel
  have h2 : materialOut.toOption.isSome = true := by decide +kernel
  cases hc : collectMeshes gltfSample 10 .default materialTable with
  | error e => rw [hc] at h1; cases h1
  | ok r =>
    cases ho : materialOut with
    | error e => rw [ho] at h2; cases h2
    | ok d =>
      rw [hc] at h1
      exact ⟨r.1, r.2, d.1, d.2, rfl, ho, Option.some.inj h1⟩

/-- the names of the example mean these images and materials: the second of the two images, the second of the two
materials; and "a b" is the material of the playfield, which has an image -/
example : TextureImage gltfSample materialTable "Playfield é".toList expandImages[1] ∧
    (∃ bytes, ImageFile gltfSample expandImages[1] bytes) ∧
    ImageFile gltfSample expandImages[2] (0x89 :: toLzwBlocks id [1, 2, 3, 254]) ∧
    (∃ v, TableMaterial materialTable.gamedata "grey".toList v ∧ v.opacity_active = true) ∧
    (∃ v, TableMaterial materialTable.gamedata "metal".toList v ∧ v.type_ = .Metal ∧ (0 : F32) <ᶠ f32One) ∧
    NoTableMaterial materialTable.gamedata "a b".toList ∧ HasPlayfieldImage materialTable ∧
    materialTable.gamedata.playfieldMaterial = "a b".toList := by
  refine ⟨⟨expandImages.take 1, expandImages.drop 2, rfl, by decide +kernel, by decide +kernel⟩,
    ⟨_, .inl ⟨_, rfl, rfl⟩⟩, .inr ⟨rfl, _, rfl, rfl⟩,
    ⟨_, ⟨_, rfl, (materialTable.gamedata.materials.getD []).take 1, (materialTable.gamedata.materials.getD []).drop 2, rfl,
      rfl, by decide +kernel⟩, rfl⟩,
    ⟨_, ⟨_, rfl, (materialTable.gamedata.materials.getD []).take 2, (materialTable.gamedata.materials.getD []).drop 3, rfl,
      rfl, by decide +kernel⟩, rfl, by decide +kernel⟩, ?_, ?_, by decide +kernel⟩
  · intro m hm
    revert m
    decide +kernel
  · exact ⟨by decide, expandImages[2], by decide +kernel, by decide +kernel⟩

/-! ### What does not hold -/

/-- A mesh whose image is not in the table loses the material of the table too: mesh F, with the material "grey", has no
material at all. -/
theorem C78_missing_image_counterexample :
    (materialOut.toOption.map fun r => (r.1.meshes[5]?.map (·.name), r.1.materialOfMesh 5)) =
    some (some "F".toList, none) := by decide +kernel

/-- Meshes that show the same image share the roughness of the first one: mesh D, whose material in the table is smooth
(roughness 0 in glTF), is as rough as mesh C. The playfield shares it too, and loses its reflections. -/
theorem C78_roughness_counterexample :
    (materialOut.toOption.map fun r => ([3, 4, 8].map fun k => (r.1.meshes[k]?.map (·.name),
      (r.1.materialOfMesh k).map (·.roughness)))) =
    some [(some "C".toList, some (some f32One)), (some "D".toList, some (some f32One)),
      (some "playfield_mesh".toList, some (some f32One))] := by decide +kernel

/-- A mesh without an image whose material has the same name as that of the playfield shows the image of the
playfield. -/
theorem C78_playfield_name_counterexample :
    (materialOut.toOption.map fun r => (r.1.meshes[6]?.map (·.name), (r.1.materialOfMesh 6).map (·.texture))) =
    some (some "G".toList, some (some 0)) := by decide +kernel

/-- A playfield image without data (a link) ends the export with a panic. -/
theorem C78_playfield_link_counterexample :
    (match gltfDocument gltfSample 10 .default { gltfTable with
      gamedata := { gltfTable.gamedata with image := "ScreenShot".toList } } with
    | .error .panic => true
    | _ => false) = true := by decide +kernel

/-- An image with both an image file and a bitmap is written as the file and labelled as a PNG, whatever the file is. -/
theorem C78_mime_counterexample :
    ((gltfDocument gltfSample 10 .default { gltfTable with
      gameitems := []
      images := [{ ImageData.sample with
        name := "Bitmap".toList, path := "b.jpg".toList, link := none, bits := some (toLzwBlocks id [1, 2, 3, 254]) }] }).toOption.map fun r =>
      (r.1.images.map (·.mime), r.1.textureBytes r.2 0)) =
    some (["image/png".toList, "image/png".toList], ImageData.sample.jpeg.map (·.data)) := by decide +kernel

end
end Vpin
