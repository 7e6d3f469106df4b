import Verif.Lemmas.GltfJson
import Verif.Lemmas.GltfParts
import Verif.Lemmas.GltfOwned
import Verif.Lemmas.Curve
/-! Helper lemmas: the whole glTF file. -/
namespace Vpin
section
variable [Arith]

theorem buildScene_ok {E : GltfEnv} {fuel : Nat} {u : ExportUnits} {vpx : VPX} {meshes : List NamedMesh}
    {groups : List ItemGroup} {materials : List (Str × GltfMaterial)} {r : Gltf.File × Bytes}
    (h : buildScene E fuel u vpx meshes groups materials = .ok r) :
    meshes ≠ [] ∧ ∃ start textured gi, startTextures E vpx.gamedata vpx.images materials = .ok start ∧
      (meshes.flatMap NamedMesh.textureNames).foldlM (addTexture E vpx.images) (start.1, []) = .ok textured ∧
      (vpx.gameitems.filterMap (isGiLight E.U)).zipIdx.mapM (giLight fuel u vpx) = .ok gi ∧
      r = sceneFile E u vpx meshes groups materials start textured gi := by
  unfold buildScene at h
  by_cases he : meshes.isEmpty = true
  · rw [if_pos he] at h
    cases h
  rw [if_neg he] at h
  obtain ⟨start, h1, h⟩ := Res.unbind h
  obtain ⟨textured, h2, h⟩ := Res.unbind h
  obtain ⟨gi, h3, h⟩ := Res.unbind h
  cases h
  exact ⟨by simpa using he, start, textured, gi, h1, h2, h3, rfl⟩

theorem gltfDocument_ok {E : GltfEnv} {fuel : Nat} {o : GltfOptions} {vpx : VPX} {r : Gltf.File × Bytes}
    (h : gltfDocument E fuel o vpx = .ok r) : ∃ meshes groups, collectMeshes E fuel o vpx = .ok (meshes, groups) ∧
      buildScene E fuel o.units vpx meshes groups (collectMaterials vpx.gamedata) = .ok r := by
  unfold gltfDocument at h
  obtain ⟨c, h1, h⟩ := Res.unbind h
  exact ⟨c.1, c.2, h1, h⟩

/-! ### The groups -/

theorem collectMeshes_parts {E : GltfEnv} {fuel : Nat} {o : GltfOptions} {vpx : VPX} {meshes : List NamedMesh}
    {groups : List ItemGroup} (h : collectMeshes E fuel o vpx = .ok (meshes, groups)) :
    ∃ parts, vpx.gameitems.mapM (collectItem E fuel o vpx) = .ok parts ∧ groups = parts.flatMap (·.groups) ∧
      meshes = if parts.any (·.playfield) then parts.flatMap (·.meshes)
        else parts.flatMap (·.meshes) ++ [implicitPlayfield vpx.gamedata] := by
  unfold collectMeshes at h
  obtain ⟨parts, hp, h⟩ := Res.unbind h
  cases h
  exact ⟨parts, hp, rfl, rfl⟩

theorem mapM_part {α β : Type} {f : α → Res β} : ∀ {l : List α} {r : List β}, l.mapM f = .ok r →
    (∀ b ∈ r, ∃ a ∈ l, f a = .ok b) ∧ ∀ a ∈ l, ∃ b ∈ r, f a = .ok b
  | [], r, h => by
    cases h
    simp
  | a :: l, r, h => by
    rw [List.mapM_cons] at h
    obtain ⟨b, hb, h⟩ := Res.unbind h
    obtain ⟨bs, hbs, h⟩ := Res.unbind h
    cases h
    obtain ⟨h1, h2⟩ := mapM_part hbs
    refine ⟨?_, ?_⟩
    · intro x hx
      rcases List.mem_cons.mp hx with rfl | hx
      · exact ⟨a, by simp, hb⟩
      · obtain ⟨y, hy, h⟩ := h1 x hx
        exact ⟨y, by simp [hy], h⟩
    · intro x hx
      rcases List.mem_cons.mp hx with rfl | hx
      · exact ⟨b, by simp, hb⟩
      · obtain ⟨y, hy, h⟩ := h2 x hx
        exact ⟨y, by simp [hy], h⟩

/-- the groups of the meshes are there -/
theorem collectMeshes_groups {E : GltfEnv} {fuel : Nat} {o : GltfOptions} {vpx : VPX} {meshes : List NamedMesh}
    {groups : List ItemGroup} (h : collectMeshes E fuel o vpx = .ok (meshes, groups)) :
    (∀ m ∈ meshes, ∀ g, m.group = some g → g ∈ groups.map (·.name)) ∧
    (∀ l ∈ vpx.gameitems.filterMap (isGiLight E.U), l.name ∈ groups.map (·.name)) ∧
    ∀ g ∈ groups, g.extras ≠ .null := by
  obtain ⟨parts, hp, rfl, hm⟩ := collectMeshes_parts h
  obtain ⟨h1, h2⟩ := mapM_part hp
  refine ⟨?_, ?_, ?_⟩
  · intro m hmm g hg
    have : m ∈ parts.flatMap (·.meshes) ∨ m = implicitPlayfield vpx.gamedata := by
      rw [hm] at hmm
      split at hmm
      · exact .inl hmm
      · rcases List.mem_append.mp hmm with h | h
        · exact .inl h
        · exact .inr (List.mem_singleton.mp h)
    rcases this with hx | rfl
    · obtain ⟨c, hc, hmc⟩ := List.mem_flatMap.mp hx
      obtain ⟨it, _, hit⟩ := h1 c hc
      rcases collectItem_owned hit with ⟨_, he⟩ | ⟨a, _, hgr, hgm⟩
      · rw [he] at hmc
        cases hmc
      · rw [hgm m hmc] at hg
        cases hg
        refine List.mem_map.mpr ⟨itemGroup E it a, List.mem_flatMap.mpr ⟨c, hc, by rw [hgr]; simp⟩, rfl⟩
    · cases hg
  · intro l hl
    obtain ⟨it, hit, hl⟩ := List.mem_filterMap.mp hl
    cases it with
    | light x =>
      unfold isGiLight at hl
      dsimp only at hl
      split at hl
      · cases hl
      · rename_i hb
        split at hl
        · cases hl
          obtain ⟨c, hc, hci⟩ := h2 _ hit
          have := collectLight_group hci (by simpa using hb)
          obtain ⟨g, hg, hn⟩ := List.mem_map.mp this
          exact List.mem_map.mpr ⟨g, List.mem_flatMap.mpr ⟨c, hc, hg⟩, hn⟩
        · cases hl
    | _ => cases hl
  · intro g hg
    obtain ⟨c, hc, hgc⟩ := List.mem_flatMap.mp hg
    obtain ⟨it, _, hit⟩ := h1 c hc
    rcases collectItem_owned hit with ⟨he, _⟩ | ⟨a, _, hgr, hgm⟩
    · rw [he] at hgc
      cases hgc
    · rw [hgr] at hgc
      rw [List.mem_singleton.mp hgc]
      exact E.extras_some it

/-! ### The lights -/

theorem giLight_node {fuel : Nat} {u : ExportUnits} {vpx : VPX} {l : Light × Nat} {r : Gltf.Light × Gltf.Node}
    (h : giLight fuel u vpx l = .ok r) : r.2.children = none ∧ r.2.mesh = none ∧ r.2.camera = none ∧
    r.2.visible = none ∧ r.2.extras = none ∧ r.2.light = some (l.2 + 2) := by
  unfold giLight at h
  obtain ⟨z, _, h⟩ := Res.unbind h
  cases h
  exact ⟨rfl, rfl, rfl, rfl, rfl, rfl⟩

/-- the nodes of the lights of the general illumination -/
theorem gi_nodes {fuel : Nat} {u : ExportUnits} {vpx : VPX} {ls : List Light} {gi : List (Gltf.Light × Gltf.Node)}
    (h : ls.zipIdx.mapM (giLight fuel u vpx) = .ok gi) :
    gi.length = ls.length ∧ ∀ n ∈ gi.map (·.2), n.children = none ∧ n.mesh = none ∧ n.camera = none ∧ n.visible = none ∧
      n.extras = none ∧ ∃ k < gi.length, n.light = some (k + 2) := by
  have hl : gi.length = ls.length := by
    have := (mapM_ok_get h).1
    simpa using this
  refine ⟨hl, ?_⟩
  intro n hn
  obtain ⟨r, hr, rfl⟩ := List.mem_map.mp hn
  obtain ⟨a, ha, hx⟩ := (mapM_part h).1 r hr
  obtain ⟨h1, h2, h3, h4, h5, h6⟩ := giLight_node hx
  have := List.mem_zipIdx' (x := a.1) (i := a.2) ha
  exact ⟨h1, h2, h3, h4, h5, a.2, by rw [hl]; exact this.1, h6⟩

/-! ### The state of the meshes -/

theorem place_items {u : ExportUnits} {mat : NamedMesh × Nat → Option Nat} : ∀ (l : List (NamedMesh × Nat)) (s : MeshState),
    ∀ e ∈ (l.foldl (addMesh u mat) s).place.items, e.1 ∈ s.place.items.map (·.1) ∨ ∃ m ∈ l, m.1.group = some e.1
  | [], s, e, he => .inl (List.mem_map_of_mem he)
  | m :: l, s, e, he => by
    rcases place_items l (addMesh u mat s m) e he with h | ⟨x, hx, h⟩
    · have : (addMesh u mat s m).place = s.place.put m.1 s.nodes.length := rfl
      rw [this] at h
      unfold Placement.put at h
      cases hg : m.1.group with
      | none =>
        rw [hg] at h
        dsimp only at h
        refine .inl ?_
        unfold Placement.hang at h
        split at h
        · exact h
        · exact h
      | some g =>
        rw [hg] at h
        rcases (keys_pushTo _ _ _ _).mp h with h | h
        · exact .inr ⟨m, by simp, by rw [hg, h]⟩
        · exact .inl h
    · exact .inr ⟨x, by simp [hx], h⟩

/-- the nodes of the meshes -/
theorem mesh_nodes {u : ExportUnits} {mat : NamedMesh × Nat → Option Nat} (l : List (NamedMesh × Nat)) (s : MeshState) :
    (l.foldl (addMesh u mat) s).nodes = s.nodes ++ l.map fun m => meshNode m.1 m.2 := by
  induction l generalizing s with
  | nil => simp
  | cons m l ih =>
    rw [List.foldl_cons, ih]
    simp [addMesh]

theorem mesh_meshes {u : ExportUnits} {mat : NamedMesh × Nat → Option Nat} (l : List (NamedMesh × Nat)) (s : MeshState) :
    (l.foldl (addMesh u mat) s).meshes.map (·.material) = s.meshes.map (·.material) ++ l.map mat := by
  induction l generalizing s with
  | nil => simp
  | cons m l ih =>
    rw [List.foldl_cons, ih]
    simp [addMesh]

end
end Vpin
