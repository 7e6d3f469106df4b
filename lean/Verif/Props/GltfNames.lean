import Verif.Props.GltfMaterials
/-!
# C78: names of materials made of a material of the table and a texture
-/
namespace Vpin
open Gltf Arith Scene
section
variable [Arith]

/-- C78: a mesh with a texture whose material in the table is coloured or metal has a material called by both names. -/
theorem C78_both_names {E : GltfEnv} {fuel : Nat} {o : GltfOptions} {vpx : VPX} {f : File} {bin : Bytes}
    (h : gltfDocument E fuel o vpx = .ok (f, bin)) {meshes : List NamedMesh} {groups : List ItemGroup}
    (hc : collectMeshes E fuel o vpx = .ok (meshes, groups)) {k : Nat} {m : NamedMesh} (hk : meshes[k]? = some m)
    (hplain : Plain m) {name : Str} (hn : m.texture = some name) {i : ImageData} (hi : TextureImage E vpx name i)
    {bytes : Bytes} (hb : ImageFile E i bytes) {mat : Str} (hmat : m.material = some mat) {v : Material}
    (hv : TableMaterial vpx.gamedata mat v)
    (hcol : colorPart v.base_color.r <ᶠ 0x3f7d70a4 ∨ colorPart v.base_color.g <ᶠ 0x3f7d70a4 ∨
      colorPart v.base_color.b <ᶠ 0x3f7d70a4 ∨ (v.type_ = .Metal ∧ (0 : F32) <ᶠ f32One)) :
    (f.materialOfMesh k).map (·.name) = some (mat ++ "_".toList ++ name) := by
  have key : (∃ y, f.materialOfMesh k = some y ∧ y.name = mat ++ "_".toList ++ name) →
      (f.materialOfMesh k).map (·.name) = some (mat ++ "_".toList ++ name) := by
    rintro ⟨y, hy, e⟩
    rw [hy, ← e]; rfl
  refine key (own_material h hc hk fun textures hhas hmap => ?_)
  obtain ⟨t, ht⟩ := Option.isSome_iff_exists.mp (hhas name hn ⟨i, bytes, hi, hb⟩)
  have hm : m.material.bind (mapGet (collectMaterials vpx.gamedata)) = some v.gltf := by
    rw [hmat, Option.bind_some, (materials_of hv).1]
  have bname : ∀ (b : Bool) (x : Gltf.Material), (blendIf b x).name = x.name := by
    intro b x
    unfold blendIf
    split <;> rfl
  have hown : m.material.getD [] ++ '_' :: name = mat ++ "_".toList ++ name := by
    rw [hmat]; simp
  unfold meshMaterial
  dsimp only
  rw [hplain.1, if_neg (by decide), hplain.2.1, hplain.2.2, hn, hm]
  dsimp only
  rw [ht]
  dsimp only
  by_cases hpaint : (v.gltf.color.r <ᶠ 0x3f7d70a4 || v.gltf.color.g <ᶠ 0x3f7d70a4 ||
      v.gltf.color.b <ᶠ 0x3f7d70a4) = true
  · rw [if_pos hpaint]
    exact ⟨_, rfl, (bname _ _).trans hown⟩
  · rw [if_neg hpaint]
    have hmetal : v.type_ = .Metal ∧ (0 : F32) <ᶠ f32One := by
      rw [Bool.or_eq_true, Bool.or_eq_true, or_assoc] at hpaint
      rcases hcol with h | h | h | h
      · exact absurd (.inl h) hpaint
      · exact absurd (.inr (.inl h)) hpaint
      · exact absurd (.inr (.inr h)) hpaint
      · exact h
    have hmv : v.gltf.metallic = f32One := by
      unfold Material.gltf
      exact if_pos hmetal.1
    rw [if_pos (by rw [hmv]; exact hmetal.2)]
    exact ⟨_, rfl, (bname _ _).trans hown⟩

end

section
attribute [local instance] ieeeExact

/-- the third mesh of the example of `Props/GltfMaterials` (metal, with an image; the hypotheses are shown there) -/
example : (materialOut.toOption.map fun r => (r.1.materialOfMesh 2).map (·.name)) =
      some (some ("metal".toList ++ "_".toList ++ "Playfield é".toList)) ∧
    TextureImage gltfSample materialTable "Playfield é".toList expandImages[1] ∧
    (∃ v, TableMaterial materialTable.gamedata "metal".toList v ∧ v.type_ = .Metal ∧ (0 : F32) <ᶠ f32One) := by
  refine ⟨by decide +kernel, ⟨expandImages.take 1, expandImages.drop 2, rfl, by decide +kernel, by decide +kernel⟩,
    ⟨_, ⟨_, rfl, (materialTable.gamedata.materials.getD []).take 2, (materialTable.gamedata.materials.getD []).drop 3, rfl,
      rfl, by decide +kernel⟩, rfl, by decide +kernel⟩⟩

end
end Vpin
