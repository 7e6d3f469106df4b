import Verif.Props.GltfMaterials
/-
C78: how the textures of an exported scene are sampled, and their names.
-/
namespace Vpin
open Gltf (File)

section
variable [Arith]

/-- the textures so far: all use the first sampler, which is the only one, and are called like their images -/
structure Sampled (s : TextureState) : Prop where
  sampler : s.samplers = [] ∧ s.textures = [] ∨ s.samplers = [⟨9729, 9987, 10497, 10497⟩]
  texture : ∀ t ∈ s.textures, t.sampler = 0 ∧
    ∃ im, s.images[t.source]? = some im ∧ t.name = im.name ++ "_texture".toList

omit [Arith] in
theorem Sampled.push {U : Unicode} {s : TextureState} (h : Sampled s) (hs : s.samplers = [⟨9729, 9987, 10497, 10497⟩])
    (i : ImageData) (bytes : Bytes) : Sampled (s.push U 0 i bytes) := by
  refine ⟨.inr hs, ?_⟩
  intro t ht
  rcases List.mem_append.1 ht with ht | ht
  · obtain ⟨h1, im, h2, h3⟩ := h.texture t ht
    obtain ⟨hlt, -⟩ := List.getElem?_eq_some_iff.1 h2
    exact ⟨h1, im, by rw [← h2]; exact List.getElem?_append_left hlt, h3⟩
  · cases List.mem_singleton.1 ht
    exact ⟨rfl, _, List.getElem?_concat_length, rfl⟩

omit [Arith] in
theorem Sampled.add {E : GltfEnv} {images : List ImageData} {s s' : TextureState × List (Str × Nat)} {name : Str}
    (h : Sampled s.1) (hs : addTexture E images s name = .ok s') : Sampled s'.1 := by
  unfold addTexture at hs
  dsimp only at hs
  split at hs
  · cases hs; exact h
  · split at hs
    · cases hs; exact h
    · obtain ⟨b, h1, hs⟩ := Res.unbind hs
      split at hs
      · cases hs; exact h
      · cases hs
        dsimp only
        split
        · rename_i he
          rcases h.sampler with ⟨h1, h2⟩ | h1
          · exact Sampled.push ⟨.inr rfl, by rw [h2]; intro t ht; cases ht⟩ rfl _ _
          · rw [h1] at he; cases he
        · rename_i he
          rcases h.sampler with ⟨h1, h2⟩ | h1
          · rw [h1] at he; exact absurd rfl he
          · exact h.push h1 _ _

omit [Arith] in
theorem Sampled.fold {E : GltfEnv} {images : List ImageData} : ∀ (names : List Str)
    {s s' : TextureState × List (Str × Nat)}, Sampled s.1 → names.foldlM (addTexture E images) s = .ok s' → Sampled s'.1
  | [], _, _, h, hs => by cases hs; exact h
  | name :: names, _, _, h, hs => by
    rw [List.foldlM_cons] at hs
    obtain ⟨t, h1, h2⟩ := Res.unbind hs
    exact Sampled.fold names (h.add h1) h2

/-- C78: every texture of the file is filtered linearly, also between mipmaps, and repeated in both directions, and is
called like its image -/
theorem C78_sampling {E : GltfEnv} {fuel : Nat} {o : GltfOptions} {vpx : VPX} {f : File} {bin : Bytes}
    (h : gltfDocument E fuel o vpx = .ok (f, bin)) {t : Gltf.Texture} (ht : t ∈ f.textures) :
    f.samplers[t.sampler]? = some
      { magFilter := 9729 /- LINEAR -/, minFilter := 9987 /- LINEAR_MIPMAP_LINEAR -/, wrapS := 10497 /- REPEAT -/
        wrapT := 10497 /- REPEAT -/ } ∧
    ∃ im, f.images[t.source]? = some im ∧ t.name = im.name ++ "_texture".toList := by
  obtain ⟨meshes, groups, -, hb⟩ := gltfDocument_ok h
  obtain ⟨-, start, textured, gi, h1, h2, -, hr⟩ := buildScene_ok hb
  obtain rfl : f = (sceneFile E o.units vpx meshes groups (collectMaterials vpx.gamedata) start textured gi).1 :=
    congrArg Prod.fst hr
  have s0 : Sampled start.1 := by
    rcases startTextures_names h1 with ⟨-, rfl⟩ | ⟨i, bytes, -, -, rfl⟩
    · exact ⟨.inl ⟨rfl, rfl⟩, fun t ht => by cases ht⟩
    · exact Sampled.push ⟨.inr rfl, fun t ht => by cases ht⟩ rfl _ _
  have s1 := Sampled.fold _ s0 h2
  obtain ⟨e, im, e1, e2⟩ := s1.texture t ht
  refine ⟨?_, im, e1, e2⟩
  rcases s1.sampler with ⟨-, hn⟩ | hs
  · have ht' : t ∈ textured.1.textures := ht
    rw [hn] at ht'
    cases ht'
  · show textured.1.samplers[t.sampler]? = _
    rw [hs, e]
    rfl

end

/-! ### Examples -/

section
attribute [local instance] ieeeExact

/-- the table of `C78` has three textures, that use one sampler -/
example : ((gltfDocument gltfSample 10 .default materialTable).toOption.map fun r =>
    (r.1.textures.map fun t => (t.name, t.sampler, t.source), r.1.samplers.length)) =
    some ([("Bitmap_texture".toList, 0, 0), ("PLAYFIELD é_texture".toList, 0, 1), ("Bitmap_texture".toList, 0, 2)], 1) := by
  decide +kernel

end
end Vpin
