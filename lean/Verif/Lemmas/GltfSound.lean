import Verif.Lemmas.GltfScene
/-! Helper lemmas: the glTF file is sound, and its scene is a tree. -/
namespace Vpin
section
variable [Arith]

/-- what the steps before the meshes leave -/
theorem scene_textures {E : GltfEnv} {vpx : VPX} {names : List Str}
    {materials : List (Str × GltfMaterial)} {start : TextureState × List (Str × Nat) × List Gltf.Material}
    {textured : TextureState × List (Str × Nat)} (h1 : startTextures E vpx.gamedata vpx.images materials = .ok start)
    (h2 : names.foldlM (addTexture E vpx.images) (start.1, []) = .ok textured) :
    TexturesOf E vpx.images textured ∧ start.1.textures.length ≤ textured.1.textures.length ∧
    (∀ name ∈ names, ∀ i bytes, mappedImage E.U vpx.images (E.U.lower name) = some i → imageBytes E i = .ok (some bytes) →
      (mapGet textured.2 (E.U.lower name)).isSome) := by
  have hs := startTextures_good h1
  have h0 : TexturesOf E vpx.images (start.1, []) := ⟨hs.1, fun k t h => by cases h⟩
  obtain ⟨a, _, c⟩ := h0.fold h2
  refine ⟨a, ?_, c⟩
  clear h0 hs a c h1
  have step : ∀ {s s' : TextureState × List (Str × Nat)} {name : Str}, addTexture E vpx.images s name = .ok s' →
      s.1.textures.length ≤ s'.1.textures.length := by
    intro s s' name hs
    unfold addTexture at hs
    dsimp only at hs
    split at hs
    · cases hs; exact Nat.le_refl _
    · split at hs
      · cases hs; exact Nat.le_refl _
      · obtain ⟨b, hb, hs⟩ := Res.unbind hs
        cases b with
        | none => cases hs; exact Nat.le_refl _
        | some b =>
          cases hs
          dsimp only [TextureState.push]
          rw [List.length_append]
          split <;> exact Nat.le_add_right _ _
  have : ∀ (names : List Str) (s s' : TextureState × List (Str × Nat)), names.foldlM (addTexture E vpx.images) s = .ok s' →
      s.1.textures.length ≤ s'.1.textures.length := by
    intro names
    induction names with
    | nil => intro s s' h; cases h; exact Nat.le_refl _
    | cons n names ih =>
      intro s s' h
      rw [List.foldlM_cons] at h
      obtain ⟨t, ht, h⟩ := Res.unbind h
      exact Nat.le_trans (step ht) (ih _ _ h)
  exact this _ _ _ h2

theorem scene_made {E : GltfEnv} {vpx : VPX} {meshes : List NamedMesh}
    {materials : List (Str × GltfMaterial)} {start : TextureState × List (Str × Nat) × List Gltf.Material}
    {textured : TextureState × List (Str × Nat)} (h1 : startTextures E vpx.gamedata vpx.images materials = .ok start)
    (h2 : (meshes.flatMap NamedMesh.textureNames).foldlM (addTexture E vpx.images) (start.1, []) = .ok textured) :
    let s := sceneMaterials E vpx meshes materials start textured
    Made textured.1.textures.length s ∧ (∀ e ∈ (sceneNames E materials start).1, e.2 < s.materials.length) ∧
    (sceneNames E materials start).2 <+: s.materials ∧
    ((∃ x ∈ s.materials, x.transmission.isSome) ↔ ∃ m ∈ meshes, m.transmits = true) := by
  obtain ⟨ht, hle, _⟩ := scene_textures h1 h2
  obtain ⟨_, hs2, hs3⟩ := startTextures_good h1
  have hn : Named (sceneNames E materials start) textured.1.textures.length := by
    refine Named.fold ⟨hs2, ?_⟩
    intro m hm
    exact ⟨(hs3 m hm).1, fun t h => Nat.lt_of_lt_of_le ((hs3 m hm).2 t h) hle⟩
  obtain ⟨m1, m2, m3⟩ := Made.fold (E := E) (g := vpx.gamedata) (images := vpx.images) (materials := materials)
    (textures := textured.2) (nt := textured.1.textures.length) (fun k t h => (ht.map k t h).1) (l := meshes.zipIdx)
    (s := ⟨(sceneNames E materials start).2, [], []⟩) ⟨fun m hm => (hn.plain m hm).2, by simp, by simp⟩
  refine ⟨m1, fun e he => Nat.lt_of_lt_of_le (hn.map e he) m2.length_le, m2, ?_⟩
  refine Iff.trans m3 ?_
  constructor
  · rintro (⟨m, hm, h⟩ | ⟨x, hx, h⟩)
    · have := List.mem_zipIdx' (x := m.1) (i := m.2) hm
      exact ⟨m.1, by rw [this.2]; exact List.getElem_mem _, h⟩
    · rw [(hn.plain x hx).1] at h
      cases h
  · rintro ⟨m, hm, h⟩
    obtain ⟨k, hk, rfl⟩ := List.mem_iff_getElem.mp hm
    exact .inl ⟨(meshes[k], k), by simp [List.mem_zipIdx_iff_getElem?], h⟩

theorem scene_meshes_good {E : GltfEnv} {u : ExportUnits} {vpx : VPX} {meshes : List NamedMesh}
    {materials : List (Str × GltfMaterial)} {start : TextureState × List (Str × Nat) × List Gltf.Material}
    {textured : TextureState × List (Str × Nat)} (ht : TexturesGood textured.1) :
    (sceneMeshes E u vpx meshes materials start textured).Good textured.1.views.length := by
  refine MeshState.Good.fold ⟨ht.laid, rfl, rfl, by simp, ?_⟩
  exact ⟨.refl _, fun i h => absurd h (by simp), by simp, .nil, .nil⟩

theorem zipIdx_get {α : Type} {l : List α} {k : Nat} {a : α} (h : l[k]? = some a) : l.zipIdx[k]? = some (a, k) := by
  rw [List.getElem?_zipIdx, h]
  simp

/-- mesh `k` of the file -/
theorem scene_mesh_at {E : GltfEnv} {u : ExportUnits} {vpx : VPX} {meshes : List NamedMesh}
    {materials : List (Str × GltfMaterial)} {start : TextureState × List (Str × Nat) × List Gltf.Material}
    {textured : TextureState × List (Str × Nat)} {k : Nat} {m : NamedMesh} (hk : meshes[k]? = some m) :
    let s := sceneMeshes E u vpx meshes materials start textured
    let made := sceneMaterials E vpx meshes materials start textured
    let names := (sceneNames E materials start).1
    ∃ t : MeshState, (addMesh u (materialOf E.U made names) t (m, k)).Grows s ∧ textured.1.bin <+: t.bin ∧
      t.views.length = textured.1.views.length + 4 * k ∧ t.accessors.length = 4 * k ∧ t.meshes.length = k ∧
      t.nodes.length = k := by
  obtain ⟨t, h1, h2, h3, h4, h5, h6⟩ := meshFold_at (u := u) (mat := materialOf E.U
    (sceneMaterials E vpx meshes materials start textured) (sceneNames E materials start).1) (zipIdx_get hk)
    ⟨textured.1.bin, textured.1.views, [], [], [], ⟨[], [], []⟩⟩
  exact ⟨t, h2, h1.bin, h3, by simpa using h4, by simpa using h5, by simpa using h6⟩

theorem prefix_getElem {α : Type} {a b : List α} (h : a <+: b) {i : Nat} {x : α} (hx : a[i]? = some x) : b[i]? = some x := by
  obtain ⟨t, rfl⟩ := h
  rw [List.getElem?_append_left (List.getElem?_eq_some_iff.mp hx).1]
  exact hx

theorem scene_mesh_get {E : GltfEnv} {u : ExportUnits} {vpx : VPX} {meshes : List NamedMesh}
    {materials : List (Str × GltfMaterial)} {start : TextureState × List (Str × Nat) × List Gltf.Material}
    {textured : TextureState × List (Str × Nat)} {k : Nat} {m : NamedMesh} (hk : meshes[k]? = some m) :
    let s := sceneMeshes E u vpx meshes materials start textured
    s.meshes[k]? = some ⟨m.name, 4 * k, 4 * k + 1, 4 * k + 2, 4 * k + 3, 4, materialOf E.U
      (sceneMaterials E vpx meshes materials start textured) (sceneNames E materials start).1 (m, k)⟩ ∧
    (∃ v mn mx, s.accessors[4 * k]? = some ⟨v, 5126, m.vertices.length, "VEC3".toList, some mn, some mx⟩) ∧
    (∃ v, s.accessors[4 * k + 1]? = some ⟨v, 5126, m.vertices.length, "VEC3".toList, none, none⟩) ∧
    (∃ v, s.accessors[4 * k + 2]? = some ⟨v, 5126, m.vertices.length, "VEC2".toList, none, none⟩) ∧
    (∃ v, s.accessors[4 * k + 3]? = some ⟨v, if m.vertices.length > 65535 then 5125 else 5123, m.faces.length * 3,
      "SCALAR".toList, none, none⟩) := by
  obtain ⟨t, hg, _, hv, ha, hm, hn⟩ := scene_mesh_at (E := E) (u := u) (vpx := vpx) (materials := materials)
    (start := start) (textured := textured) hk
  have hacc : ∀ (j : Nat) (x : Gltf.Accessor), (addMesh u (materialOf E.U
      (sceneMaterials E vpx meshes materials start textured) (sceneNames E materials start).1) t (m, k)).accessors[
        t.accessors.length + j]? = some x →
      (sceneMeshes E u vpx meshes materials start textured).accessors[4 * k + j]? = some x := by
    intro j x hx
    rw [ha] at hx
    exact prefix_getElem hg.accessors hx
  have hnew : ∀ (l : List Gltf.Accessor) (j : Nat), (t.accessors ++ l)[t.accessors.length + j]? = l[j]? := by
    intro l j
    rw [List.getElem?_append_right (Nat.le_add_right _ _), Nat.add_sub_cancel_left]
  refine ⟨prefix_getElem hg.meshes ?_, ⟨_, _, _, hacc 0 _ (hnew _ 0)⟩, ⟨_, hacc 1 _ (hnew _ 1)⟩, ⟨_, hacc 2 _ (hnew _ 2)⟩,
    ⟨t.views.length + 3, ?_⟩⟩
  · have := List.getElem?_concat_length (l := t.meshes) (a := (⟨m.name, t.accessors.length, t.accessors.length + 1,
      t.accessors.length + 2, t.accessors.length + 3, 4, materialOf E.U
      (sceneMaterials E vpx meshes materials start textured) (sceneNames E materials start).1 (m, k)⟩ : Gltf.Mesh))
    rw [hm] at this
    rw [← ha]
    exact this
  · refine (hacc 3 _ (hnew _ 3)).trans ?_
    by_cases hw : m.vertices.length > 65535 <;> simp [hw]

theorem scene_sound {E : GltfEnv} {fuel : Nat} {u : ExportUnits} {vpx : VPX} {meshes : List NamedMesh}
    {groups : List ItemGroup} {materials : List (Str × GltfMaterial)} {f : Gltf.File} {bin : Bytes}
    (h : buildScene E fuel u vpx meshes groups materials = .ok (f, bin)) : f.Sound bin := by
  obtain ⟨_, start, textured, gi, h1, h2, h3, hr⟩ := buildScene_ok h
  obtain ⟨ht, _, _⟩ := scene_textures h1 h2
  obtain ⟨m1, m2, m3, m4⟩ := scene_made h1 h2
  have hg := scene_meshes_good (E := E) (u := u) (vpx := vpx) (meshes := meshes) (materials := materials)
    (start := start) ht.good
  have hlen : (sceneMeshes E u vpx meshes materials start textured).meshes.length = meshes.length := by
    have := (meshFold_lengths u (materialOf E.U (sceneMaterials E vpx meshes materials start textured)
      (sceneNames E materials start).1) meshes.zipIdx ⟨textured.1.bin, textured.1.views, [], [], [], ⟨[], [], []⟩⟩).2.2.1
    exact this.trans (by simp)
  have hnodes : (sceneMeshes E u vpx meshes materials start textured).nodes =
      meshes.zipIdx.map fun m => meshNode m.1 m.2 := by
    have := mesh_nodes (u := u) (mat := materialOf E.U (sceneMaterials E vpx meshes materials start textured)
      (sceneNames E materials start).1) meshes.zipIdx ⟨textured.1.bin, textured.1.views, [], [], [], ⟨[], [], []⟩⟩
    exact this.trans (by simp)
  have hgi := gi_nodes h3
  have hzip : ∀ l ∈ (vpx.gameitems.filterMap (isGiLight E.U)).zip (gi.map (·.2)), l.2 ∈ gi.map (·.2) :=
    fun l hl => (List.of_mem_zip hl).2
  obtain rfl : f = (sceneFile E u vpx meshes groups materials start textured gi).1 := congrArg Prod.fst hr
  obtain rfl : bin = (sceneFile E u vpx meshes groups materials start textured gi).2 := congrArg Prod.snd hr
  have hall := fun (P : Gltf.Node → Prop) a b c d e' f' g' =>
    arrange_all (P := P) (E := E) (u := u) (vpx := vpx) (groups := groups)
      (gi := (vpx.gameitems.filterMap (isGiLight E.U)).zip (gi.map (·.2)))
      (nodes := (sceneMeshes E u vpx meshes materials start textured).nodes)
      (place := (sceneMeshes E u vpx meshes materials start textured).place) a b c d e' f' g'
  have hroot : ∀ (P : Gltf.Node → Prop), (∀ n ∈ (arrangeNodes E u vpx groups
      ((vpx.gameitems.filterMap (isGiLight E.U)).zip (gi.map (·.2)))
      (sceneMeshes E u vpx meshes materials start textured).nodes
      (sceneMeshes E u vpx meshes materials start textured).place).1, P n) →
      (∀ name cs x, P { emptyNode name with children := some cs, extras := some x }) →
      ∀ n ∈ (sceneFile E u vpx meshes groups materials start textured gi).1.nodes, P n := by
    intro P hP hr n hn
    rcases List.mem_append.mp hn with hn | hn
    · exact hP n hn
    · rw [List.mem_singleton.mp hn]
      exact hr _ _ _
  refine ⟨rfl, ⟨_, rfl⟩, ?_, hg.laid.ordered, hg.fills, ?_, ?_, m1.textures, ht.good.textures, ?_, ?_, ?_, ?_, ?_⟩
  · exact (hg.laid.grow (pad4_length _)).inside
  · intro x hx
    obtain ⟨k, hk, rfl⟩ := List.mem_iff_getElem.mp hx
    have hk' : k < meshes.length := by rw [← hlen]; exact hk
    obtain ⟨g0, ⟨v0, mn, mx, g1⟩, ⟨v1, g2⟩, ⟨v2, g3⟩, ⟨v3, g4⟩⟩ := scene_mesh_get (E := E) (u := u) (vpx := vpx)
      (materials := materials) (start := start) (textured := textured) (List.getElem?_eq_getElem hk')
    have g0 : (sceneFile E u vpx meshes groups materials start textured gi).1.meshes[k]? = _ := g0
    rw [List.getElem?_eq_getElem hk] at g0
    have g0 := Option.some.inj g0
    have e : (sceneFile E u vpx meshes groups materials start textured gi).1.meshes[k] = _ := g0
    rw [e]
    refine ⟨rfl, ⟨_, g1, rfl, rfl, rfl, rfl⟩, ⟨_, _, g1, g2, rfl, rfl, rfl⟩, ⟨_, _, g1, g3, rfl, rfl, rfl⟩,
      ⟨_, g4, ?_, rfl, Nat.mul_mod_left _ _⟩, ?_⟩
    · dsimp only
      split
      · exact .inr rfl
      · exact .inl rfl
    · intro j hj
      exact materialOf_lt m1 m2 hj
  · show ((textured.1.images.map (·.view)) ++ _).Perm _
    have hv := hg.views
    have hu := hg.used
    have hl : (sceneFile E u vpx meshes groups materials start textured gi).1.views.length = textured.1.views.length +
      (sceneMeshes E u vpx meshes materials start textured).accessors.length := hv
    rw [hl, ht.good.views, List.range_eq_range', List.range_eq_range']
    have : (sceneFile E u vpx meshes groups materials start textured gi).1.accessors.map (·.view) =
      List.range' textured.1.views.length _ := hu
    rw [this]
    have hr := List.range'_append_1 (s := 0) (m := textured.1.views.length)
      (n := (sceneMeshes E u vpx meshes materials start textured).accessors.length)
    rw [Nat.zero_add] at hr
    rw [hr]
  · refine hroot _ (hall _ ?_ ?_ ?_ ?_ ?_ ?_ ?_) ?_
    · intro n hn k hk
      rw [hnodes] at hn
      obtain ⟨m, hm, rfl⟩ := List.mem_map.mp hn
      cases hk
      have := List.mem_zipIdx' (x := m.1) (i := m.2) hm
      show m.2 < (sceneMeshes E u vpx meshes materials start textured).meshes.length
      rw [hlen]
      exact this.1
    · intro _ _ _ _ k hk; cases hk
    · intro l hl k hk
      rw [(hgi.2 _ (hzip l hl)).2.1] at hk
      cases hk
    · exact fun _ _ n hn => hn
    · intro _ _ _ k hk; cases hk
    · intro _ _ k hk; cases hk
    · intro _ _ _ k hk; cases hk
    · intro _ _ _ k hk; cases hk
  · have hll : (sceneFile E u vpx meshes groups materials start textured gi).1.lights.length = 2 + gi.length := by
      show ([_, _] ++ gi.map fun (x : Gltf.Light × Gltf.Node) => x.1).length = _
      simp
      omega
    rw [hll]
    refine hroot _ (hall _ ?_ ?_ ?_ ?_ ?_ ?_ ?_) ?_
    · intro n hn k hk
      rw [hnodes] at hn
      obtain ⟨m, hm, rfl⟩ := List.mem_map.mp hn
      cases hk
    · intro _ _ i hi k hk
      cases hk
      omega
    · intro l hl k hk
      obtain ⟨_, _, _, _, _, j, hj, he⟩ := hgi.2 _ (hzip l hl)
      rw [he] at hk
      cases hk
      omega
    · exact fun _ _ n hn => hn
    · intro _ _ _ k hk; cases hk
    · intro _ _ k hk; cases hk
    · intro _ _ _ k hk; cases hk
    · intro _ _ _ k hk; cases hk
  · have hll : (sceneFile E u vpx meshes groups materials start textured gi).1.cameras.length =
        (E.cameras vpx).length := by
      show ((E.cameras vpx).map _).length = _
      simp
    rw [hll]
    refine hroot _ (hall _ ?_ ?_ ?_ ?_ ?_ ?_ ?_) ?_
    · intro n hn k hk
      rw [hnodes] at hn
      obtain ⟨m, hm, rfl⟩ := List.mem_map.mp hn
      cases hk
    · intro _ _ i hi k hk; cases hk
    · intro l hl k hk
      rw [(hgi.2 _ (hzip l hl)).2.2.1] at hk
      cases hk
    · exact fun _ _ n hn => hn
    · intro _ _ _ k hk; cases hk
    · intro _ _ k hk; cases hk
    · intro _ i hi k hk; cases hk; exact hi
    · intro _ _ _ k hk; cases hk
  · intro e
    have hvis : (∃ n ∈ (sceneFile E u vpx meshes groups materials start textured gi).1.nodes, n.visible.isSome = true) ↔
        ∃ m ∈ meshes, m.visible = false := by
      constructor
      · intro hex
        by_cases hno : ∃ m ∈ meshes, m.visible = false
        · exact hno
        · exfalso
          obtain ⟨n, hn, hv⟩ := hex
          have : ∀ n ∈ (sceneFile E u vpx meshes groups materials start textured gi).1.nodes, n.visible = none := by
            refine hroot _ (hall _ ?_ ?_ ?_ ?_ ?_ ?_ ?_) ?_
            · intro n hn
              rw [hnodes] at hn
              obtain ⟨m, hm, rfl⟩ := List.mem_map.mp hn
              have := List.mem_zipIdx' (x := m.1) (i := m.2) hm
              have hmm : m.1 ∈ meshes := by rw [this.2]; exact List.getElem_mem _
              have hmv : m.1.visible = true := by
                cases hb : m.1.visible with
                | true => rfl
                | false => exact absurd ⟨_, hmm, hb⟩ hno
              simp [meshNode, hmv]
            · exact fun _ _ _ _ => rfl
            · exact fun l hl => (hgi.2 _ (hzip l hl)).2.2.2.1
            · exact fun _ _ n hn => hn
            · exact fun _ _ _ => rfl
            · exact fun _ _ => rfl
            · exact fun _ _ _ => rfl
            · exact fun _ _ _ => rfl
          rw [this n hn] at hv
          cases hv
      · rintro ⟨m, hm, hv⟩
        obtain ⟨k, hk, rfl⟩ := List.mem_iff_getElem.mp hm
        have hget : (sceneMeshes E u vpx meshes materials start textured).nodes[k]? = some (meshNode meshes[k] k) := by
          rw [hnodes, List.getElem?_map, zipIdx_get (List.getElem?_eq_getElem hk)]
          rfl
        obtain ⟨x, hx⟩ := arrange_keeps E u vpx groups ((vpx.gameitems.filterMap (isGiLight E.U)).zip (gi.map (·.2)))
          _ (sceneMeshes E u vpx meshes materials start textured).place k _ hget
        refine ⟨_, List.mem_append_left _ (List.mem_of_getElem? hx), ?_⟩
        simp [meshNode, hv]
    rw [hvis]
    show e ∈ (_ :: (_ ++ _)) ↔ _ ∨ (_ ∧ ∃ m ∈ (sceneMaterials E vpx meshes materials start textured).materials, _) ∨ _
    rw [m4]
    have hne : (sceneFile E u vpx meshes groups materials start textured gi).1.lights ≠ [] := by
      show ([_, _] ++ gi.map fun (x : Gltf.Light × Gltf.Node) => x.1) ≠ []
      simp
    simp only [List.mem_cons, List.mem_append, hne, ne_eq, not_false_eq_true, and_true]
    have e1 : e ∈ (if meshes.any NamedMesh.transmits = true then ["KHR_materials_transmission".toList] else []) ↔
        e = "KHR_materials_transmission".toList ∧ ∃ m ∈ meshes, m.transmits = true := by
      by_cases ha : meshes.any NamedMesh.transmits = true
      · rw [if_pos ha]
        simp only [List.mem_singleton]
        exact ⟨fun h => ⟨h, List.any_eq_true.mp ha⟩, fun h => h.1⟩
      · rw [if_neg ha]
        constructor
        · intro h; cases h
        · rintro ⟨_, h⟩
          exact absurd (List.any_eq_true.mpr h) ha
    have e2 : e ∈ (if meshes.any (fun m => !m.visible) = true then ["KHR_node_visibility".toList] else []) ↔
        e = "KHR_node_visibility".toList ∧ ∃ m ∈ meshes, m.visible = false := by
      by_cases ha : meshes.any (fun m => !m.visible) = true
      · rw [if_pos ha]
        simp only [List.mem_singleton]
        refine ⟨fun h => ⟨h, ?_⟩, fun h => h.1⟩
        obtain ⟨m, hm, h⟩ := List.any_eq_true.mp ha
        exact ⟨m, hm, by simpa using h⟩
      · rw [if_neg ha]
        constructor
        · intro h; cases h
        · rintro ⟨_, m, hm, h⟩
          exact absurd (List.any_eq_true.mpr ⟨m, hm, by simp [h]⟩) ha
    rw [e1, e2]
  · show ("KHR_lights_punctual".toList :: ((if meshes.any NamedMesh.transmits then ["KHR_materials_transmission".toList]
      else []) ++ (if meshes.any (fun m => !m.visible) then ["KHR_node_visibility".toList] else []))).Nodup
    by_cases ha : meshes.any NamedMesh.transmits = true <;> by_cases hb : meshes.any (fun m => !m.visible) = true
    · rw [if_pos ha, if_pos hb]; decide
    · rw [if_pos ha, if_neg hb]; decide
    · rw [if_neg ha, if_pos hb]; decide
    · rw [if_neg ha, if_neg hb]; decide

/-- the scene is a tree, if the groups of the meshes are there -/
theorem scene_tree {E : GltfEnv} {fuel : Nat} {u : ExportUnits} {vpx : VPX} {meshes : List NamedMesh}
    {groups : List ItemGroup} {materials : List (Str × GltfMaterial)} {f : Gltf.File} {bin : Bytes}
    (h : buildScene E fuel u vpx meshes groups materials = .ok (f, bin))
    (hm : ∀ m ∈ meshes, ∀ g, m.group = some g → g ∈ groups.map (·.name))
    (hl : ∀ l ∈ vpx.gameitems.filterMap (isGiLight E.U), l.name ∈ groups.map (·.name)) :
    f.Tree (f.nodes.length - 1) := by
  obtain ⟨hne, start, textured, gi, h1, h2, h3, hr⟩ := buildScene_ok h
  obtain ⟨ht, _, _⟩ := scene_textures h1 h2
  have hg := scene_meshes_good (E := E) (u := u) (vpx := vpx) (meshes := meshes) (materials := materials)
    (start := start) ht.good
  have hgi := gi_nodes h3
  have hzip : ∀ l ∈ (vpx.gameitems.filterMap (isGiLight E.U)).zip (gi.map (·.2)),
      l.1 ∈ vpx.gameitems.filterMap (isGiLight E.U) ∧ l.2 ∈ gi.map (·.2) :=
    fun l hl => List.of_mem_zip hl
  have hung := arrange_hung (E := E) (u := u) (vpx := vpx) (groups := groups)
    (gi := (vpx.gameitems.filterMap (isGiLight E.U)).zip (gi.map (·.2))) hg.hung
    (fun l hl => (hgi.2 _ (hzip l hl).2).1) (by
      intro e he
      rcases place_items _ _ e he with h | ⟨m, hmm, h⟩
      · simp at h
      · have := List.mem_zipIdx' (x := m.1) (i := m.2) hmm
        exact hm m.1 (by rw [this.2]; exact List.getElem_mem _) _ h)
    (fun l h => hl l.1 (hzip l h).1)
  obtain rfl : f = (sceneFile E u vpx meshes groups materials start textured gi).1 := congrArg Prod.fst hr
  generalize hf : (sceneFile E u vpx meshes groups materials start textured gi).1 = f
  have hscene : f.scene = 0 := by rw [← hf]; rfl
  have hscenes : f.scenes = [[(arrangeNodes E u vpx groups
    ((vpx.gameitems.filterMap (isGiLight E.U)).zip (gi.map (·.2)))
    (sceneMeshes E u vpx meshes materials start textured).nodes
    (sceneMeshes E u vpx meshes materials start textured).place).1.length]] := by rw [← hf]; rfl
  have hnodes : f.nodes = (arrangeNodes E u vpx groups
    ((vpx.gameitems.filterMap (isGiLight E.U)).zip (gi.map (·.2)))
    (sceneMeshes E u vpx meshes materials start textured).nodes
    (sceneMeshes E u vpx meshes materials start textured).place).1 ++
    [{ emptyNode (if vpx.gamedata.name.isEmpty then "Table".toList else vpx.gamedata.name) with
      children := some (arrangeNodes E u vpx groups ((vpx.gameitems.filterMap (isGiLight E.U)).zip (gi.map (·.2)))
        (sceneMeshes E u vpx meshes materials start textured).nodes
        (sceneMeshes E u vpx meshes materials start textured).place).2,
      extras := some (E.tableExtras vpx.gamedata) }] := by rw [← hf]; rfl
  have hmesh : (sceneMeshes E u vpx meshes materials start textured).nodes =
      meshes.zipIdx.map fun m => meshNode m.1 m.2 := by
    have := mesh_nodes (u := u) (mat := materialOf E.U (sceneMaterials E vpx meshes materials start textured)
      (sceneNames E materials start).1) meshes.zipIdx ⟨textured.1.bin, textured.1.views, [], [], [], ⟨[], [], []⟩⟩
    exact this.trans (by simp)
  have hstill := arrange_all (P := fun n => n.children.isSome → n.translation = none ∧ n.rotation = none ∧ n.scale = none)
    (E := E) (u := u) (vpx := vpx) (groups := groups)
    (gi := (vpx.gameitems.filterMap (isGiLight E.U)).zip (gi.map (·.2)))
    (nodes := (sceneMeshes E u vpx meshes materials start textured).nodes)
    (place := (sceneMeshes E u vpx meshes materials start textured).place)
    (by
      intro n hn hc
      rw [hmesh] at hn
      obtain ⟨m, _, rfl⟩ := List.mem_map.mp hn
      cases hc)
    (by intro _ _ _ _ hc; cases hc)
    (by
      intro l hl hc
      rw [(hgi.2 _ (hzip l hl).2).1] at hc
      cases hc)
    (fun _ _ _ h => h) (fun _ _ _ _ => ⟨rfl, rfl, rfl⟩) (fun _ _ _ => ⟨rfl, rfl, rfl⟩) (by intro _ _ _ hc; cases hc)
  have hpos : 0 < (arrangeNodes E u vpx groups ((vpx.gameitems.filterMap (isGiLight E.U)).zip (gi.map (·.2)))
      (sceneMeshes E u vpx meshes materials start textured).nodes
      (sceneMeshes E u vpx meshes materials start textured).place).1.length := by
    have h0 : 0 < meshes.length := List.length_pos_iff.mpr hne
    have hget : (sceneMeshes E u vpx meshes materials start textured).nodes[0]? = some (meshNode meshes[0] 0) := by
      rw [hmesh, List.getElem?_map, zipIdx_get (List.getElem?_eq_getElem h0)]
      rfl
    obtain ⟨x, hx⟩ := arrange_keeps E u vpx groups ((vpx.gameitems.filterMap (isGiLight E.U)).zip (gi.map (·.2)))
      _ (sceneMeshes E u vpx meshes materials start textured).place 0 _ hget
    exact (List.getElem?_eq_some_iff.mp hx).1
  generalize arrangeNodes E u vpx groups _ _ _ = a at hung hscenes hnodes hstill hpos
  have hroots : a.2 ≠ [] := by
    intro he
    have hn := hung.once
    have hm : a.1.length - 1 ∈ allChildren a.1 := by
      have := hn.mem_iff.mpr (List.mem_range.mpr (Nat.sub_lt hpos Nat.one_pos))
      rcases List.mem_append.mp this with h | h
      · simp [Placement.all, listed, he] at h
      · exact h
    obtain ⟨n, hn, hin⟩ := List.mem_flatMap.mp hm
    obtain ⟨k, hk, rfl⟩ := List.mem_iff_getElem.mp hn
    have := hung.before k hk _ hin
    omega
  obtain ⟨t1, t2⟩ := hung.tree rfl f hnodes
  have hlen : f.nodes.length - 1 = a.1.length := by
    rw [hnodes]
    simp
  rw [hlen]
  refine ⟨by rw [hscene, hscenes]; rfl, t1, t2, ?_, ?_⟩
  · intro n hn
    rw [hnodes] at hn
    rcases List.mem_append.mp hn with hn | hn
    · exact hung.filled n hn
    · rw [List.mem_singleton.mp hn]
      simpa using hroots
  · intro n hn
    rw [hnodes] at hn
    rcases List.mem_append.mp hn with hn | hn
    · exact hstill n hn
    · rw [List.mem_singleton.mp hn]
      exact fun _ => ⟨rfl, rfl, rfl⟩

/-- the document that is read from the JSON -/
theorem scene_read {E : GltfEnv} {fuel : Nat} {u : ExportUnits} {vpx : VPX} {meshes : List NamedMesh}
    {groups : List ItemGroup} {materials : List (Str × GltfMaterial)} {f : Gltf.File} {bin : Bytes}
    (h : buildScene E fuel u vpx meshes groups materials = .ok (f, bin))
    (hg : ∀ g ∈ groups, g.extras ≠ .null) : ∀ n ∈ f.nodes, n.extras ≠ some .null := by
  obtain ⟨_, start, textured, gi, h1, h2, h3, hr⟩ := buildScene_ok h
  have hgi := gi_nodes h3
  obtain rfl : f = (sceneFile E u vpx meshes groups materials start textured gi).1 := congrArg Prod.fst hr
  have hmesh : (sceneMeshes E u vpx meshes materials start textured).nodes =
      meshes.zipIdx.map fun m => meshNode m.1 m.2 := by
    have := mesh_nodes (u := u) (mat := materialOf E.U (sceneMaterials E vpx meshes materials start textured)
      (sceneNames E materials start).1) meshes.zipIdx ⟨textured.1.bin, textured.1.views, [], [], [], ⟨[], [], []⟩⟩
    exact this.trans (by simp)
  intro n hn
  rcases List.mem_append.mp hn with hn | hn
  · refine arrange_all (P := fun n => n.extras ≠ some .null) ?_ ?_ ?_ ?_ ?_ ?_ ?_ n hn
    · intro n hn
      rw [hmesh] at hn
      obtain ⟨m, _, rfl⟩ := List.mem_map.mp hn
      exact fun h => by cases h
    · exact fun _ _ _ _ h => by cases h
    · intro l hl
      rw [(hgi.2 _ (List.of_mem_zip hl).2).2.2.2.2.1]
      exact fun h => by cases h
    · intro g hgm n _
      simpa using hg g hgm
    · intro g hgm _
      simpa using hg g hgm
    · exact fun _ _ h => by cases h
    · exact fun _ _ _ h => by cases h
  · rw [List.mem_singleton.mp hn]
    simpa using E.tableExtras_some _

end
end Vpin
