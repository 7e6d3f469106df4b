import Verif.Props.GltfMaterials
/-
The surfaces of the glTF file that do not come from the table's material alone (C78): the playfield with its reflections,
tinted meshes and meshes that let light through.
-/
namespace Vpin
section
variable [Arith]
open Arith Scene
open Gltf (File)

/-- the metal and the roughness the table gives to a mesh: those of the material its name means, of the new or the old
kind, or no metal and a half -/
def Scene.SurfaceOf (g : GameData) (m : NamedMesh) (metal rough : F32) : Prop :=
  (∃ name v, m.material = some name ∧ TableMaterial g name v ∧ metal = (if v.type_ = .Metal then f32One else 0) ∧
    rough = f32One -ᶠ v.roughness) ∨
  (∃ name v, m.material = some name ∧ OldTableMaterial g name v ∧ metal = (if v.is_metal then f32One else 0) ∧
    rough = f32One -ᶠ v.roughness) ∨
  ((∀ name, m.material = some name → NoTableMaterial g name) ∧ metal = 0 ∧ rough = fHalf)

/-- the material of the table, if there is one, is white (all channels at least 0.99) -/
def Scene.White (g : GameData) (m : NamedMesh) : Prop :=
  ∀ name c, m.material = some name →
    ((∃ v, TableMaterial g name v ∧ c = v.base_color) ∨ (∃ v, OldTableMaterial g name v ∧ c = v.base_color)) →
    ¬ (colorPart c.r <ᶠ 0x3f7d70a4 ∨ colorPart c.g <ᶠ 0x3f7d70a4 ∨ colorPart c.b <ᶠ 0x3f7d70a4)

/-- the material of the table, if there is one, is see-through (opacity below 0.999) -/
def Scene.Blends (g : GameData) (m : NamedMesh) : Prop :=
  ∃ name, m.material = some name ∧
    ((∃ v, TableMaterial g name v ∧ v.opacity_active = true ∧ v.opacity <ᶠ 0x3f7fbe77) ∨
      (∃ v, OldTableMaterial g name v ∧ v.opacity_active_edge_alpha &&& 1 ≠ 0 ∧ v.opacity <ᶠ 0x3f7fbe77))

/-- how rough a playfield is that reflects with this strength: above 0.1 it is 0.2 less 0.17 times the strength, but at
least 0.03 and at most 0.2; otherwise it is as rough as it is anyway -/
def Scene.PlayfieldRough (strength rough r : F32) : Prop :=
  if f0p1 <ᶠ strength then
    let x := (0x3e4ccccd : F32) -ᶠ strength *ᶠ 0x3e2e147b
    if x <ᶠ 0x3cf5c28f then r = (if (0x3e4ccccd : F32) <ᶠ 0x3cf5c28f then 0x3e4ccccd else 0x3cf5c28f)
    else if (0x3e4ccccd : F32) <ᶠ x then r = 0x3e4ccccd
    else r = x
  else r = rough

theorem playfieldRough_iff {s p r : F32} (h : PlayfieldRough s p r) : playfieldRoughness s p = r := by
  unfold PlayfieldRough at h
  unfold playfieldRoughness fClamp
  dsimp only at h ⊢
  split at h
  · rename_i hs
    rw [if_pos hs]
    split at h
    · rename_i hx
      rw [if_pos hx]
      exact h.symm
    · rename_i hx
      rw [if_neg hx]
      split at h
      · rename_i hy
        rw [if_pos hy]; exact h.symm
      · rename_i hy
        rw [if_neg hy]; exact h.symm
  · rename_i hs
    rw [if_neg hs]; exact h.symm

/-- what the table says about the surface, as the exporter finds it -/
theorem surface_of {g : GameData} {m : NamedMesh} {metal rough : F32} (h : SurfaceOf g m metal rough) :
    ((m.material.bind (mapGet (collectMaterials g))).map (·.metallic)).getD 0 = metal ∧
      ((m.material.bind (mapGet (collectMaterials g))).map (·.roughness)).getD fHalf = rough := by
  rcases h with ⟨name, v, hn, hv, rfl, rfl⟩ | ⟨name, v, hn, hv, rfl, rfl⟩ | ⟨hno, rfl, rfl⟩
  · rw [hn, Option.bind_some, (materials_of hv).1]
    exact ⟨rfl, rfl⟩
  · rw [hn, Option.bind_some, (materials_of_old hv).1]
    exact ⟨rfl, rfl⟩
  · have : m.material.bind (mapGet (collectMaterials g)) = none := by
      cases hm : m.material with
      | none => rfl
      | some z => rw [Option.bind_some, materials_none (hno z hm)]
    rw [this]
    exact ⟨rfl, rfl⟩

theorem blendIf_surface (b : Bool) (x : Gltf.Material) :
    (blendIf b x).metallic = x.metallic ∧ (blendIf b x).roughness = x.roughness := by
  unfold blendIf
  split <;> exact ⟨rfl, rfl⟩

/-- C78: tinted meshes and meshes that let light through are of the metal and the roughness of their material in the
table -/
theorem C78_surface {E : GltfEnv} {fuel : Nat} {o : GltfOptions} {vpx : VPX} {f : File} {bin : Bytes}
    (h : gltfDocument E fuel o vpx = .ok (f, bin)) {meshes : List NamedMesh} {groups : List ItemGroup}
    (hc : collectMeshes E fuel o vpx = .ok (meshes, groups)) {k : Nat} {m : NamedMesh} (hk : meshes[k]? = some m)
    (hb : m.isBall = false) (hp : m.isPlayfield = false)
    (ht : m.tint.isSome ∨ ∃ v, m.transmission = some v ∧ (0 : F32) <ᶠ v) {metal rough : F32}
    (hs : SurfaceOf vpx.gamedata m metal rough) :
    ∃ y, f.materialOfMesh k = some y ∧ y.metallic = num metal ∧ y.roughness = num rough := by
  refine own_material h hc hk fun textures _ _ => ?_
  obtain ⟨h1, h2⟩ := surface_of hs
  unfold meshMaterial
  dsimp only
  rw [hb, if_neg (by decide), h1, h2, hp, if_neg (by decide)]
  cases hti : m.tint with
  | some c =>
    dsimp only
    exact ⟨_, rfl, (blendIf_surface _ _).1, (blendIf_surface _ _).2⟩
  | none =>
    rcases ht with ht | ⟨v, hv, hpos⟩
    · rw [hti] at ht; cases ht
    · rw [hv]
      dsimp only
      rw [if_pos hpos]
      split
      · exact ⟨_, rfl, (blendIf_surface _ _).1, (blendIf_surface _ _).2⟩
      · exact ⟨_, rfl, (blendIf_surface _ _).1, (blendIf_surface _ _).2⟩

/-- the see-through materials, as the exporter finds them -/
theorem blends_of {g : GameData} {m : NamedMesh} {metal rough : F32} (h : SurfaceOf g m metal rough) :
    (m.material.bind (mapGet (collectMaterials g))).any GltfMaterial.blends = true ↔ Blends g m := by
  unfold Blends
  have one : ∀ {name : Str} {v w : Material}, TableMaterial g name v → TableMaterial g name w → v.gltf = w.gltf := by
    intro name v w hv hw
    exact Option.some.inj ((materials_of hv).1.symm.trans (materials_of hw).1)
  rcases h with ⟨name, v, hn, hv, -, -⟩ | ⟨name, v, hn, hv, -, -⟩ | ⟨hno, -, -⟩
  · rw [hn, Option.bind_some, (materials_of hv).1, Option.any_some]
    unfold GltfMaterial.blends
    rw [Bool.and_eq_true]
    constructor
    · intro hb
      refine ⟨name, rfl, .inl ⟨v, hv, hb.1, ?_⟩⟩
      have h2 := hb.2
      have h1 : v.opacity_active = true := hb.1
      unfold Material.gltf colorTint at h2
      dsimp only at h2
      rw [if_pos h1] at h2
      exact h2
    · rintro ⟨_, e, hb⟩
      cases e
      rcases hb with ⟨w, hw, h1, h2⟩ | ⟨w, hw, -, -⟩
      · rw [one hv hw]
        refine ⟨h1, ?_⟩
        unfold Material.gltf colorTint
        dsimp only
        rw [if_pos h1]
        exact h2
      · obtain ⟨l, hl, -⟩ := hv
        rw [hw.1] at hl
        cases hl
  · rw [hn, Option.bind_some, (materials_of_old hv).1, Option.any_some]
    unfold GltfMaterial.blends
    rw [Bool.and_eq_true]
    constructor
    · intro hb
      have h1 : (v.opacity_active_edge_alpha &&& 1 != 0) = true := hb.1
      refine ⟨name, rfl, .inr ⟨v, hv, by simpa using h1, ?_⟩⟩
      have h2 := hb.2
      unfold SaveMaterial.gltf colorTint at h2
      dsimp only at h2
      rw [if_pos h1] at h2
      exact h2
    · rintro ⟨_, e, hb⟩
      cases e
      rcases hb with ⟨w, ⟨l, hl, -⟩, -, -⟩ | ⟨w, hw, h1, h2⟩
      · rw [hv.1] at hl
        cases hl
      · have e : v.gltf = w.gltf := Option.some.inj ((materials_of_old hv).1.symm.trans (materials_of_old hw).1)
        rw [e]
        have h1 : (w.opacity_active_edge_alpha &&& 1 != 0) = true := by simpa using h1
        refine ⟨h1, ?_⟩
        unfold SaveMaterial.gltf colorTint
        dsimp only
        rw [if_pos h1]
        exact h2
  · have hnone : m.material.bind (mapGet (collectMaterials g)) = none := by
      cases hm : m.material with
      | none => rfl
      | some z => rw [Option.bind_some, materials_none (hno z hm)]
    rw [hnone]
    refine ⟨fun h => (by cases h), ?_⟩
    rintro ⟨name, hn, hb⟩
    have h0 := materials_none (hno name hn)
    rcases hb with ⟨w, hw, -⟩ | ⟨w, hw, -⟩
    · rw [(materials_of hw).1] at h0; cases h0
    · rw [(materials_of_old hw).1] at h0; cases h0

omit [Arith] in
theorem see_through {E : GltfEnv} {vpx : VPX} {name : Str} {i : ImageData} (hi : TextureImage E vpx name i) :
    (mappedImage E.U vpx.images (E.U.lower name)).any (imageHasTransparency E) = true ↔ SeeThrough E i := by
  rw [mappedImage_of hi]
  unfold imageHasTransparency SeeThrough
  simp only [Option.any_some]
  cases i.is_opaque with
  | none => simp
  | some b => cases b <;> simp

omit [Arith] in
theorem blendIf_mode {b : Bool} {x : Gltf.Material} (h : x.alphaMode = none) :
    (blendIf b x).alphaMode = some "BLEND".toList ↔ b = true := by
  unfold blendIf
  cases b with
  | true => exact ⟨fun _ => rfl, fun _ => rfl⟩
  | false =>
    rw [if_neg (by decide), h]
    exact ⟨fun h => (by cases h), fun h => (by cases h)⟩

/-- C78: the first mesh that shows an image, if its material in the table is neither coloured nor metal. It is white and
no metal, and blended exactly if the material or the image is see-through. The playfield is as rough as the strength of the
table's reflections makes it, any other mesh as its material says. -/
theorem C78_playfield {E : GltfEnv} {fuel : Nat} {o : GltfOptions} {vpx : VPX} {f : File} {bin : Bytes}
    (h : gltfDocument E fuel o vpx = .ok (f, bin)) {meshes : List NamedMesh} {groups : List ItemGroup}
    (hc : collectMeshes E fuel o vpx = .ok (meshes, groups)) {k : Nat} {m : NamedMesh} (hk : meshes[k]? = some m)
    (hplain : Plain m) {name : Str} (hn : m.texture = some name) {i : ImageData}
    (hi : TextureImage E vpx name i) {bytes : Bytes} (hb : ImageFile E i bytes)
    (hbefore : ∀ j < k, ∀ m' name', meshes[j]? = some m' → m'.texture = some name' → E.U.lower name' ≠ E.U.lower name)
    {rough r : F32} (hs : SurfaceOf vpx.gamedata m 0 rough) (hzero : ¬ (0 : F32) <ᶠ 0) (hw : White vpx.gamedata m)
    (hr : if m.isPlayfield then PlayfieldRough vpx.gamedata.playfield_reflection_strength rough r else r = rough) :
    ∃ y, f.materialOfMesh k = some y ∧ y.name = "__texture__".toList ++ name ∧ y.metallic = num 0 ∧
      y.roughness = num r ∧ y.color = none ∧ y.doubleSided = some true ∧ y.transmission = none ∧
      (y.alphaMode = some "BLEND".toList ↔ Blends vpx.gamedata m ∨ SeeThrough E i) := by
  obtain ⟨start, textured, -, hT, hhas, -, hfm, hmesh⟩ := scene_material h hc
  obtain ⟨x, hx, hxm⟩ := hmesh k m hk
  have hS := scene_second (E := E) (vpx := vpx) (meshes := meshes) (materials := collectMaterials vpx.gamedata)
    (start := start) (textured := textured)
  obtain ⟨t, ht⟩ := Option.isSome_iff_exists.mp (hhas m (List.mem_of_getElem? hk) name (.inl hn) i bytes
    (mappedImage_of hi) (imageBytes_of hb))
  obtain ⟨h1, h2⟩ := surface_of hs
  have hbl := blends_of hs
  have hsee := see_through hi
  have hrough : (if m.isPlayfield = true then playfieldRoughness vpx.gamedata.playfield_reflection_strength rough
      else rough) = r := by
    split at hr
    · rename_i hp
      rw [if_pos hp, playfieldRough_iff hr]
    · rename_i hp
      rw [if_neg hp, hr]
  have hy : ∃ y, meshMaterial E vpx.gamedata vpx.images (collectMaterials vpx.gamedata) textured.2 m =
      some (some (E.U.lower name), y) ∧ y.name = "__texture__".toList ++ name ∧ y.metallic = num 0 ∧
      y.roughness = num r ∧ y.color = none ∧ y.doubleSided = some true ∧ y.transmission = none ∧
      (y.alphaMode = some "BLEND".toList ↔ Blends vpx.gamedata m ∨ SeeThrough E i) := by
    have keep : ∀ (b : Bool) (x : Gltf.Material), (blendIf b x).name = x.name ∧ (blendIf b x).metallic = x.metallic ∧
        (blendIf b x).roughness = x.roughness ∧ (blendIf b x).color = x.color ∧
        (blendIf b x).doubleSided = x.doubleSided ∧ (blendIf b x).transmission = x.transmission := by
      intro b x
      unfold blendIf
      split <;> exact ⟨rfl, rfl, rfl, rfl, rfl, rfl⟩
    have all : ∀ (b : Bool) (x : Gltf.Material), (b = true ↔ Blends vpx.gamedata m ∨ SeeThrough E i) →
        x.name = "__texture__".toList ++ name → x.metallic = num 0 → x.roughness = num r → x.color = none →
        x.doubleSided = some true → x.transmission = none → x.alphaMode = none →
        (blendIf b x).name = "__texture__".toList ++ name ∧ (blendIf b x).metallic = num 0 ∧
        (blendIf b x).roughness = num r ∧ (blendIf b x).color = none ∧ (blendIf b x).doubleSided = some true ∧
        (blendIf b x).transmission = none ∧
        ((blendIf b x).alphaMode = some "BLEND".toList ↔ Blends vpx.gamedata m ∨ SeeThrough E i) := by
      intro b x hb a1 a2 a3 a4 a5 a6 a7
      obtain ⟨b1, b2, b3, b4, b5, b6⟩ := keep b x
      exact ⟨b1.trans a1, b2.trans a2, b3.trans a3, b4.trans a4, b5.trans a5, b6.trans a6, (blendIf_mode a7).trans hb⟩
    have hblend : ((m.material.bind (mapGet (collectMaterials vpx.gamedata))).any GltfMaterial.blends ||
        (mappedImage E.U vpx.images (E.U.lower name)).any (imageHasTransparency E)) = true ↔
        Blends vpx.gamedata m ∨ SeeThrough E i := by
      rw [Bool.or_eq_true, hbl, hsee]
    unfold meshMaterial
    dsimp only
    rw [hplain.1, if_neg (by decide), hplain.2.1, hplain.2.2, hn, h1, h2, hrough]
    dsimp only
    rw [ht]
    dsimp only
    cases hm : m.material.bind (mapGet (collectMaterials vpx.gamedata)) with
    | none =>
      rw [hm] at hblend
      exact ⟨_, rfl, all _ _ hblend rfl rfl rfl rfl rfl rfl rfl⟩
    | some v =>
      rw [hm] at hblend
      dsimp only
      have hwhite : ¬ (v.color.r <ᶠ 0x3f7d70a4 ∨ v.color.g <ᶠ 0x3f7d70a4 ∨ v.color.b <ᶠ 0x3f7d70a4) := by
        rcases hs with ⟨mat, u, hmat, hu, -, -⟩ | ⟨mat, u, hmat, hu, -, -⟩ | ⟨hno, -, -⟩
        · rw [hmat, Option.bind_some, (materials_of hu).1] at hm
          cases hm
          exact hw mat u.base_color hmat (.inl ⟨u, hu, rfl⟩)
        · rw [hmat, Option.bind_some, (materials_of_old hu).1] at hm
          cases hm
          exact hw mat u.base_color hmat (.inr ⟨u, hu, rfl⟩)
        · obtain ⟨mat, hmat, hv⟩ := Option.bind_eq_some_iff.mp hm
          rw [materials_none (hno mat hmat)] at hv
          cases hv
      have hmetal : v.metallic = 0 := by
        rw [hm] at h1
        exact h1
      rw [if_neg (fun hx => hwhite (by rw [Bool.or_eq_true, Bool.or_eq_true, or_assoc] at hx; exact hx)),
        if_neg (by rw [hmetal]; exact hzero)]
      exact ⟨_, rfl, all _ _ hblend rfl rfl rfl rfl rfl rfl rfl⟩
  obtain ⟨y, hy, hP⟩ := hy
  obtain ⟨j, k', m', z, hj, hjz, hk', hm', hz, -⟩ := materialOf_shared (names := (sceneNames E
    (collectMaterials vpx.gamedata) start).1) hS hk hy
  have hkk : k' = k := by
    rcases Nat.lt_or_eq_of_le hk' with hlt | heq
    · obtain ⟨name', hn', e⟩ := meshMaterial_key hz
      exact absurd e.symm (hbefore k' hlt m' name' hm' hn')
    · exact heq
  subst hkk
  rw [hk] at hm'
  cases hm'
  rw [hy] at hz
  cases hz
  exact ⟨y, materialOfMesh_some hx (hxm.trans hj) (by rw [hfm]; exact hjz), hP⟩

/-- C78: a mesh that lets light through is blended exactly if its material is see-through, or the image it shows. With an
image it is seen from both sides. -/
theorem C78_transmission_blend {E : GltfEnv} {fuel : Nat} {o : GltfOptions} {vpx : VPX} {f : File} {bin : Bytes}
    (h : gltfDocument E fuel o vpx = .ok (f, bin)) {meshes : List NamedMesh} {groups : List ItemGroup}
    (hc : collectMeshes E fuel o vpx = .ok (meshes, groups)) {k : Nat} {m : NamedMesh} (hk : meshes[k]? = some m)
    (hb : m.isBall = false) (ht : m.tint = none) {v : F32} (hv : m.transmission = some v) (hp : (0 : F32) <ᶠ v)
    {metal rough : F32} (hs : SurfaceOf vpx.gamedata m metal rough) :
    (m.texture = none → ∃ y, f.materialOfMesh k = some y ∧ y.texture = none ∧
      (y.alphaMode = some "BLEND".toList ↔ Blends vpx.gamedata m)) ∧
    (∀ name i bytes, m.texture = some name → TextureImage E vpx name i → ImageFile E i bytes →
      ∃ y, f.materialOfMesh k = some y ∧ y.texture.isSome ∧ y.doubleSided = some true ∧
        (y.alphaMode = some "BLEND".toList ↔ Blends vpx.gamedata m ∨ SeeThrough E i)) := by
  have hbl := blends_of hs
  refine ⟨fun hn => own_material h hc hk fun textures _ _ => ?_, fun name i bytes hn hi hf =>
    own_material h hc hk fun textures hhas _ => ?_⟩
  · unfold meshMaterial
    dsimp only
    rw [hb, if_neg (by decide), ht, hv, hn]
    dsimp only
    rw [if_pos hp]
    exact ⟨_, rfl, blendIf_texture _ _, (blendIf_mode rfl).trans hbl⟩
  · obtain ⟨t, ht'⟩ := Option.isSome_iff_exists.mp (hhas name hn ⟨i, bytes, hi, hf⟩)
    unfold meshMaterial
    dsimp only
    rw [hb, if_neg (by decide), ht, hv, hn]
    dsimp only [Option.bind_some]
    rw [if_pos hp]
    split
    · refine ⟨_, rfl, by rw [blendIf_texture]; rfl, ?_, (blendIf_mode rfl).trans ?_⟩
      · unfold blendIf
        split <;> rfl
      · rw [Bool.or_eq_true, hbl, Option.any_some, see_through hi]
    · rename_i h0
      rw [ht'] at h0
      cases h0

/-- C78: the names of materials made for one mesh: that of the mesh and what is special about it -/
theorem C78_names {E : GltfEnv} {fuel : Nat} {o : GltfOptions} {vpx : VPX} {f : File} {bin : Bytes}
    (h : gltfDocument E fuel o vpx = .ok (f, bin)) {meshes : List NamedMesh} {groups : List ItemGroup}
    (hc : collectMeshes E fuel o vpx = .ok (meshes, groups)) {k : Nat} {m : NamedMesh} (hk : meshes[k]? = some m) :
    (m.isBall = true → (f.materialOfMesh k).map (·.name) = some (m.name ++ "_ball".toList)) ∧
    (m.isBall = false → m.tint.isSome → m.texture = none →
      (f.materialOfMesh k).map (·.name) = some (m.name ++ "_color".toList)) ∧
    (m.isBall = false → m.tint.isSome → ∀ t i bytes, m.texture = some t → TextureImage E vpx t i → ImageFile E i bytes →
      (f.materialOfMesh k).map (·.name) = some (m.name ++ "_".toList ++ t)) ∧
    (m.isBall = false → m.tint = none → ∀ v, m.transmission = some v → (0 : F32) <ᶠ v →
      (f.materialOfMesh k).map (·.name) = some (m.name ++ "_transmission".toList)) := by
  have key : ∀ n : Str, (∃ y, f.materialOfMesh k = some y ∧ y.name = n) → (f.materialOfMesh k).map (·.name) = some n := by
    rintro n ⟨y, hy, rfl⟩
    rw [hy]; rfl
  have bname : ∀ (b : Bool) (x : Gltf.Material), (blendIf b x).name = x.name := by
    intro b x
    unfold blendIf
    split <;> rfl
  refine ⟨fun hb => key _ (own_material h hc hk fun textures _ _ => ?_),
    fun hb ht hn => key _ (own_material h hc hk fun textures _ _ => ?_),
    fun hb ht t i bytes hn hi hf => key _ (own_material h hc hk fun textures hhas _ => ?_),
    fun hb ht v hv hp => key _ (own_material h hc hk fun textures _ _ => ?_)⟩
  · unfold meshMaterial
    dsimp only
    rw [if_pos hb]
    exact ⟨_, rfl, rfl⟩
  · obtain ⟨c, hcol⟩ := Option.isSome_iff_exists.mp ht
    unfold meshMaterial
    dsimp only
    rw [hb, if_neg (by decide), hcol, hn]
    exact ⟨_, rfl, bname _ _⟩
  · obtain ⟨c, hcol⟩ := Option.isSome_iff_exists.mp ht
    unfold meshMaterial
    dsimp only
    rw [hb, if_neg (by decide), hcol, hn]
    dsimp only
    rw [if_pos (hhas t hn ⟨i, bytes, hi, hf⟩)]
    exact ⟨_, rfl, (bname _ _).trans (by simp [newMaterial])⟩
  · unfold meshMaterial
    dsimp only
    rw [hb, if_neg (by decide), ht, hv]
    dsimp only
    rw [if_pos hp]
    split
    · exact ⟨_, rfl, bname _ _⟩
    · exact ⟨_, rfl, bname _ _⟩

end

/-! ### Examples -/

section
attribute [local instance] ieeeExact
open Scene Arith

/-- a table whose playfield reflects with half strength, and a tinted flasher -/
def playfieldTable : VPX :=
  { materialTable with
    gamedata := { materialTable.gamedata with playfield_reflection_strength := fHalf }
    gameitems := [.flasher { Flasher.default with name := "H".toList, is_visible := true }] }

/-- the playfield of the example is 0.2 - 0.5 * 0.17 rough, the flasher is no metal and half rough -/
example : ((gltfDocument gltfSample 10 .default playfieldTable).toOption.map fun r => ([0, 1].map fun k =>
      (r.1.materialOfMesh k).map fun y => (y.metallic, y.roughness))) =
    some [some (some 0, some fHalf), some (some 0, some (0x3e4ccccd -ᶠ fHalf *ᶠ 0x3e2e147b))] ∧
    (f0p1 <ᶠ fHalf) = true := by
  constructor <;> decide +kernel

/-- two primitives that let light through, one of a see-through material and one with an image that is not -/
def throughTable : VPX :=
  { materialTable with
    version := ⟨1081⟩
    gameitems := [
      .primitive { Primitive.default with
        name := "A".toList, sides := 3, material := "grey".toList, disable_lighting_below := some fHalf },
      .primitive { Primitive.default with
        name := "B".toList, sides := 3, image := "Playfield é".toList, disable_lighting_below := some fHalf },
      .flasher { Flasher.default with name := "H".toList, is_visible := true, image_a := "Bitmap".toList }] }

example : ((gltfDocument gltfSample 10 .default throughTable).toOption.map fun r => ([0, 1, 2].map fun k =>
      (r.1.materialOfMesh k).map fun y => (y.name, y.alphaMode, y.transmission.isSome))) =
    some [some ("A_transmission".toList, some "BLEND".toList, true), some ("B_transmission".toList, none, true),
      some ("H_Bitmap".toList, some "BLEND".toList, false)] ∧
    ((collectMeshes gltfSample 10 .default throughTable).toOption.map fun r => r.1.map fun m =>
      (m.isBall, m.tint.isSome, (m.transmission.getD 0 : F32))) =
    some [(false, false, 1041865114), (false, false, 1041865114), (false, true, 0), (false, false, 0)] ∧
    Blends throughTable.gamedata { NamedMesh.of [] ⟨[], []⟩ with material := some "grey".toList } := by
  refine ⟨by decide +kernel, by decide +kernel, _, rfl, .inl ⟨_, ⟨_, rfl,
    (materialTable.gamedata.materials.getD []).take 1, (materialTable.gamedata.materials.getD []).drop 2, rfl,
      rfl, by decide +kernel⟩, rfl, by decide +kernel⟩⟩

/-- both meshes meet the hypotheses -/
example : ((collectMeshes gltfSample 10 .default playfieldTable).toOption.map fun r => r.1.map fun m =>
      ((m.isPlayfield, m.isBall, m.tint.isSome), m.texture.getD [], m.material.getD [])) =
    some [((false, false, true), [], []), ((true, false, false), "Bitmap".toList, "a b".toList)] ∧
    NoTableMaterial playfieldTable.gamedata "a b".toList ∧ ¬ (0 : F32) <ᶠ 0 ∧
    PlayfieldRough fHalf fHalf (0x3e4ccccd -ᶠ fHalf *ᶠ 0x3e2e147b) := by
  refine ⟨by decide +kernel, ?_, by decide +kernel, ?_⟩
  · intro m hm
    revert m
    decide +kernel
  · unfold PlayfieldRough
    rw [if_pos (by decide +kernel)]
    dsimp only
    rw [if_neg (by decide +kernel), if_neg (by decide +kernel)]

end
end Vpin
