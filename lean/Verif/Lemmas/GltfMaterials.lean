import Verif.Lemmas.GltfSound
/-! Helper lemmas: which material a mesh of the glTF export gets. -/
namespace Vpin
section
variable [Arith]

/-! ### The second pass -/

/-- after the second pass over the meshes `l`: the materials of single meshes and the shared ones -/
structure SecondPass (f : NamedMesh → Option (Option Str × Gltf.Material)) (l : List (NamedMesh × Nat))
    (s : MaterialState) : Prop where
  own : ∀ m ∈ l, ∀ x, f m.1 = some (none, x) → ∃ j, (m.2, j) ∈ s.ofMesh ∧ s.materials[j]? = some x
  owned : ∀ e ∈ s.ofMesh, ∃ m ∈ l, m.2 = e.1 ∧ ∃ x, f m.1 = some (none, x) ∧ s.materials[e.2]? = some x
  shared : ∀ key j, mapGet s.ofTexture key = some j → ∃ a m b x, l = a ++ m :: b ∧ f m.1 = some (some key, x) ∧
    s.materials[j]? = some x ∧ ∀ n ∈ a, ∀ y, f n.1 ≠ some (some key, y)
  has : ∀ m ∈ l, ∀ key x, f m.1 = some (some key, x) → (mapGet s.ofTexture key).isSome

omit [Arith] in
theorem SecondPass.start (f : NamedMesh → Option (Option Str × Gltf.Material)) (x : List Gltf.Material) :
    SecondPass f [] ⟨x, [], []⟩ :=
  ⟨by simp, by simp, fun _ _ h => (by cases h), by simp⟩

omit [Arith] in
theorem getElem?_grow {α : Type} {l r : List α} {i : Nat} {a : α} (h : l[i]? = some a) : (l ++ r)[i]? = some a := by
  rw [List.getElem?_append_left (List.getElem?_eq_some_iff.mp h).1]
  exact h

theorem SecondPass.add {E : GltfEnv} {g : GameData} {images : List ImageData} {materials : List (Str × GltfMaterial)}
    {textures : List (Str × Nat)} {l : List (NamedMesh × Nat)} {s : MaterialState}
    (h : SecondPass (meshMaterial E g images materials textures) l s) (m : NamedMesh × Nat) :
    SecondPass (meshMaterial E g images materials textures) (l ++ [m])
      (addMeshMaterial E g images materials textures s m) := by
  generalize hf : meshMaterial E g images materials textures = f at h ⊢
  have hadd : addMeshMaterial E g images materials textures s m = match f m.1 with
    | none => s
    | some (none, x) => { s with materials := s.materials ++ [x], ofMesh := s.ofMesh ++ [(m.2, s.materials.length)] }
    | some (some key, x) =>
      if (mapGet s.ofTexture key).isSome then s
      else { s with materials := s.materials ++ [x], ofTexture := mapInsert s.ofTexture key s.materials.length } := by
    subst hf
    rfl
  rw [hadd]
  have hsh : ∀ {key : Str} {j : Nat} {M : List Gltf.Material}, (∀ (i : Nat) (y : Gltf.Material), s.materials[i]? = some y → M[i]? = some y) →
      mapGet s.ofTexture key = some j → ∃ a n b x, l ++ [m] = a ++ n :: b ∧ f n.1 = some (some key, x) ∧
      M[j]? = some x ∧ ∀ n ∈ a, ∀ y, f n.1 ≠ some (some key, y) := by
    intro key j M hM hj
    obtain ⟨a, n, b, x, e, h1, h2, h3⟩ := h.shared key j hj
    exact ⟨a, n, b ++ [m], x, by rw [e]; simp, h1, hM _ _ h2, h3⟩
  cases hm : f m.1 with
  | none =>
    dsimp only
    refine ⟨?_, ?_, fun key j hj => hsh (fun _ _ h => h) hj, ?_⟩
    · intro n hn x hx
      rcases List.mem_append.mp hn with hn | hn
      · exact h.own n hn x hx
      · rw [List.mem_singleton.mp hn, hm] at hx
        cases hx
    · intro e he
      obtain ⟨n, hn, hx⟩ := h.owned e he
      exact ⟨n, by simp [hn], hx⟩
    · intro n hn key x hx
      rcases List.mem_append.mp hn with hn | hn
      · exact h.has n hn key x hx
      · rw [List.mem_singleton.mp hn, hm] at hx
        cases hx
  | some r =>
    obtain ⟨k, x⟩ := r
    cases k with
    | none =>
      dsimp only
      refine ⟨?_, ?_, fun key j hj => hsh (fun _ _ h => getElem?_grow h) hj, ?_⟩
      · intro n hn y hy
        rcases List.mem_append.mp hn with hn | hn
        · obtain ⟨j, h1, h2⟩ := h.own n hn y hy
          exact ⟨j, by simp [h1], getElem?_grow h2⟩
        · rw [List.mem_singleton.mp hn] at hy ⊢
          rw [hm] at hy
          cases hy
          exact ⟨s.materials.length, by simp, by simp⟩
      · intro e he
        rcases List.mem_append.mp he with he | he
        · obtain ⟨n, hn, h1, y, h2, h3⟩ := h.owned e he
          exact ⟨n, by simp [hn], h1, y, h2, getElem?_grow h3⟩
        · rw [List.mem_singleton.mp he]
          exact ⟨m, by simp, rfl, x, hm, by simp⟩
      · intro n hn key y hy
        rcases List.mem_append.mp hn with hn | hn
        · exact h.has n hn key y hy
        · rw [List.mem_singleton.mp hn, hm] at hy
          cases hy
    | some key =>
      dsimp only
      by_cases hs : (mapGet s.ofTexture key).isSome = true
      · rw [if_pos hs]
        refine ⟨?_, ?_, fun key j hj => hsh (fun _ _ h => h) hj, ?_⟩
        · intro n hn y hy
          rcases List.mem_append.mp hn with hn | hn
          · exact h.own n hn y hy
          · rw [List.mem_singleton.mp hn, hm] at hy
            cases hy
        · intro e he
          obtain ⟨n, hn, hx⟩ := h.owned e he
          exact ⟨n, by simp [hn], hx⟩
        · intro n hn k y hy
          rcases List.mem_append.mp hn with hn | hn
          · exact h.has n hn k y hy
          · rw [List.mem_singleton.mp hn, hm] at hy
            cases hy
            exact hs
      · rw [if_neg hs]
        refine ⟨?_, ?_, ?_, ?_⟩
        · intro n hn y hy
          rcases List.mem_append.mp hn with hn | hn
          · obtain ⟨j, h1, h2⟩ := h.own n hn y hy
            exact ⟨j, h1, getElem?_grow h2⟩
          · rw [List.mem_singleton.mp hn, hm] at hy
            cases hy
        · intro e he
          obtain ⟨n, hn, h1, y, h2, h3⟩ := h.owned e he
          exact ⟨n, by simp [hn], h1, y, h2, getElem?_grow h3⟩
        · intro k j hj
          dsimp only at hj
          rw [mapGet_insert] at hj
          by_cases hk : k = key
          · rw [if_pos hk] at hj
            cases hj
            subst hk
            refine ⟨l, m, [], x, rfl, hm, by simp, ?_⟩
            intro n hn y hy
            exact hs (h.has n hn k y hy)
          · rw [if_neg hk] at hj
            exact hsh (fun _ _ h => getElem?_grow h) hj
        · intro n hn k y hy
          dsimp only
          rw [mapGet_insert]
          split
          · rfl
          · rename_i hk
            rcases List.mem_append.mp hn with hn | hn
            · exact h.has n hn k y hy
            · rw [List.mem_singleton.mp hn, hm] at hy
              cases hy
              exact absurd rfl hk

theorem SecondPass.fold {E : GltfEnv} {g : GameData} {images : List ImageData} {materials : List (Str × GltfMaterial)}
    {textures : List (Str × Nat)} : ∀ {l pre : List (NamedMesh × Nat)} {s : MaterialState},
    SecondPass (meshMaterial E g images materials textures) pre s →
    SecondPass (meshMaterial E g images materials textures) (pre ++ l)
      (l.foldl (addMeshMaterial E g images materials textures) s)
  | [], pre, s, h => by simpa using h
  | m :: l, pre, s, h => by
    have := SecondPass.fold (l := l) (h.add m)
    rw [List.append_assoc] at this
    exact this

theorem scene_second {E : GltfEnv} {vpx : VPX} {meshes : List NamedMesh} {materials : List (Str × GltfMaterial)}
    {start : TextureState × List (Str × Nat) × List Gltf.Material} {textured : TextureState × List (Str × Nat)} :
    SecondPass (meshMaterial E vpx.gamedata vpx.images materials textured.2) meshes.zipIdx
      (sceneMaterials E vpx meshes materials start textured) :=
  (SecondPass.start _ _).fold

/-- the number of the material of a mesh that has its own -/
theorem materialOf_own {U : Unicode} {f : NamedMesh → Option (Option Str × Gltf.Material)} {meshes : List NamedMesh}
    {s : MaterialState} {names : List (Str × Nat)} (h : SecondPass f meshes.zipIdx s) {k : Nat} {m : NamedMesh}
    (hk : meshes[k]? = some m) {x : Gltf.Material} (hx : f m = some (none, x)) :
    ∃ j, materialOf U s names (m, k) = some j ∧ s.materials[j]? = some x := by
  obtain ⟨j, hj, _⟩ := h.own (m, k) (List.mem_of_getElem? (zipIdx_get hk)) x hx
  unfold materialOf
  cases hf : s.ofMesh.find? (fun e => e.1 == k) with
  | none =>
    have := List.find?_eq_none.mp hf _ hj
    simp at this
  | some e =>
    dsimp only
    refine ⟨e.2, rfl, ?_⟩
    have he : e.1 = k := by simpa using List.find?_some hf
    obtain ⟨n, hn, h1, y, h2, h3⟩ := h.owned e (List.mem_of_find?_eq_some hf)
    have hn' := List.mem_zipIdx' (x := n.1) (i := n.2) hn
    have : meshes[n.2]? = some n.1 := by
      rw [List.getElem?_eq_getElem hn'.1, ← hn'.2]
    rw [h1, he, hk] at this
    cases this
    rw [hx] at h2
    cases h2
    exact h3

omit [Arith] in
/-- a mesh without its own material -/
theorem materialOf_other {U : Unicode} {f : NamedMesh → Option (Option Str × Gltf.Material)} {meshes : List NamedMesh}
    {s : MaterialState} {names : List (Str × Nat)} (h : SecondPass f meshes.zipIdx s) {k : Nat} {m : NamedMesh}
    (hk : meshes[k]? = some m) (hx : ∀ x, f m ≠ some (none, x)) :
    materialOf U s names (m, k) = match m.texture with
      | some t => mapGet s.ofTexture (U.lower t)
      | none => m.material.bind (mapGet names) := by
  unfold materialOf
  cases hf : s.ofMesh.find? (fun e => e.1 == k) with
  | none => rfl
  | some e =>
    have he : e.1 = k := by simpa using List.find?_some hf
    obtain ⟨n, hn, h1, y, h2, h3⟩ := h.owned e (List.mem_of_find?_eq_some hf)
    have hn' := List.mem_zipIdx' (x := n.1) (i := n.2) hn
    have : meshes[n.2]? = some n.1 := by
      rw [List.getElem?_eq_getElem hn'.1, ← hn'.2]
    rw [h1, he, hk] at this
    cases this
    exact absurd h2 (hx y)

/-- the key of a shared material is the texture -/
theorem meshMaterial_key {E : GltfEnv} {g : GameData} {images : List ImageData}
    {materials : List (Str × GltfMaterial)} {textures : List (Str × Nat)} {m : NamedMesh} {key : Str}
    {x : Gltf.Material} (h : meshMaterial E g images materials textures m = some (some key, x)) :
    ∃ name, m.texture = some name ∧ key = E.U.lower name := by
  unfold meshMaterial at h
  dsimp only at h
  repeat' split at h
  all_goals first
    | cases h; done
    | (cases h; exact ⟨_, by assumption, rfl⟩)

/-- a mesh with a shared material: the first one that uses the texture in this way decides what it looks like -/
theorem materialOf_shared {E : GltfEnv} {g : GameData} {images : List ImageData}
    {materials : List (Str × GltfMaterial)} {textures : List (Str × Nat)} {meshes : List NamedMesh}
    {s : MaterialState} {names : List (Str × Nat)}
    (h : SecondPass (meshMaterial E g images materials textures) meshes.zipIdx s) {k : Nat} {m : NamedMesh}
    (hk : meshes[k]? = some m) {key : Str} {x : Gltf.Material}
    (hx : meshMaterial E g images materials textures m = some (some key, x)) :
    ∃ (j k' : Nat) (m' : NamedMesh) (x' : Gltf.Material), materialOf E.U s names (m, k) = some j ∧ s.materials[j]? = some x' ∧
      k' ≤ k ∧ meshes[k']? = some m' ∧ meshMaterial E g images materials textures m' = some (some key, x') ∧
      ∀ i n y, i < k' → meshes[i]? = some n → meshMaterial E g images materials textures n ≠ some (some key, y) := by
  have hi := h.has (m, k) (List.mem_of_getElem? (zipIdx_get hk)) key x hx
  obtain ⟨j, hj⟩ := Option.isSome_iff_exists.mp hi
  obtain ⟨a, n, b, x', e, h1, h2, h3⟩ := h.shared key j hj
  obtain ⟨name, ht, rfl⟩ := meshMaterial_key hx
  have hlen : n.2 = a.length ∧ meshes[a.length]? = some n.1 := by
    have : meshes.zipIdx[a.length]? = some n := by rw [e]; simp
    rw [List.getElem?_zipIdx] at this
    cases hg : meshes[a.length]? with
    | none => rw [hg] at this; cases this
    | some y =>
      rw [hg] at this
      simp at this
      rw [← this]
      simp
  have hbefore : ∀ i n y, i < a.length → meshes[i]? = some n →
      meshMaterial E g images materials textures n ≠ some (some (E.U.lower name), y) := by
    intro i q y hia hq
    refine h3 (q, i) ?_ y
    have hz := zipIdx_get hq
    rw [e, List.getElem?_append_left hia] at hz
    exact List.mem_of_getElem? hz
  refine ⟨j, a.length, n.1, x', ?_, h2, ?_, hlen.2, h1, hbefore⟩
  · rw [materialOf_other h hk (fun y hy => by rw [hx] at hy; cases hy), ht]
    exact hj
  · by_cases hle : a.length ≤ k
    · exact hle
    · exact absurd hx (hbefore k m x (by omega) hk)

theorem addMeshMaterial_prefix {E : GltfEnv} {g : GameData} {images : List ImageData}
    {materials : List (Str × GltfMaterial)} {textures : List (Str × Nat)} : ∀ (l : List (NamedMesh × Nat))
    (s : MaterialState), s.materials <+: (l.foldl (addMeshMaterial E g images materials textures) s).materials
  | [], s => List.prefix_refl _
  | m :: l, s => by
    refine List.IsPrefix.trans ?_ (addMeshMaterial_prefix l (addMeshMaterial E g images materials textures s m))
    unfold addMeshMaterial
    split
    · exact List.prefix_refl _
    · exact List.prefix_append _ _
    · split
      · exact List.prefix_refl _
      · exact List.prefix_append _ _

/-! ### The materials of the table -/

/-- the material of the file for a material of the table -/
def tableMaterial (v : GltfMaterial) : Gltf.Material :=
  blendIf v.blends { newMaterial v.name v.metallic v.roughness with color := some (rgbaNums v.color) }

theorem addMaterial_fold_prefix : ∀ (l : List (Str × GltfMaterial)) (s : List (Str × Nat) × List Gltf.Material),
    s.2 <+: (l.foldl addMaterial s).2
  | [], s => List.prefix_refl _
  | m :: l, s => by
    refine List.IsPrefix.trans ?_ (addMaterial_fold_prefix l (addMaterial s m))
    unfold addMaterial
    split
    · exact List.prefix_refl _
    · exact List.prefix_append _ _

omit [Arith] in
theorem prefix_get' {α : Type} {l r : List α} (h : l <+: r) {i : Nat} {a : α} (hi : l[i]? = some a) : r[i]? = some a := by
  obtain ⟨t, rfl⟩ := h
  exact getElem?_grow hi

theorem addMaterial_fold_keeps : ∀ (l : List (Str × GltfMaterial)) (s : List (Str × Nat) × List Gltf.Material) (n : Str)
    (j : Nat), mapGet s.1 n = some j → mapGet (l.foldl addMaterial s).1 n = some j
  | [], s, n, j, h => h
  | m :: l, s, n, j, h => by
    refine addMaterial_fold_keeps l (addMaterial s m) n j ?_
    unfold addMaterial
    split
    · exact h
    · rename_i hm
      dsimp only
      rw [mapGet_insert, if_neg]
      · exact h
      · intro hn
        subst hn
        rw [h] at hm
        exact hm rfl

/-- a name that the materials do not have stays without a number -/
theorem addMaterial_fold_none : ∀ (l : List (Str × GltfMaterial)) (s : List (Str × Nat) × List Gltf.Material) (n : Str),
    mapGet s.1 n = none → (∀ e ∈ l, e.1 ≠ n) → mapGet (l.foldl addMaterial s).1 n = none
  | [], s, n, h, _ => h
  | m :: l, s, n, h, hl => by
    refine addMaterial_fold_none l (addMaterial s m) n ?_ (fun e he => hl e (by simp [he]))
    unfold addMaterial
    split
    · exact h
    · dsimp only
      rw [mapGet_insert, if_neg (fun hn => hl m (by simp) hn.symm)]
      exact h

theorem addMaterial_fold_gets : ∀ (l : List (Str × GltfMaterial)) (s : List (Str × Nat) × List Gltf.Material) (n : Str)
    (v : GltfMaterial), (l.map (·.1)).Nodup → (n, v) ∈ l → mapGet s.1 n = none →
    ∃ j, mapGet (l.foldl addMaterial s).1 n = some j ∧ (l.foldl addMaterial s).2[j]? = some (tableMaterial v)
  | [], s, n, v, _, h, _ => by cases h
  | m :: l, s, n, v, hd, h, hs => by
    rw [List.map_cons, List.nodup_cons] at hd
    rw [List.foldl_cons]
    rcases List.mem_cons.mp h with rfl | h
    · have hadd : addMaterial s (n, v) = (mapInsert s.1 n s.2.length, s.2 ++ [tableMaterial v]) := by
        unfold addMaterial
        rw [if_neg (by rw [hs]; simp)]
        rfl
      refine ⟨s.2.length, addMaterial_fold_keeps l _ n _ ?_, prefix_get' (addMaterial_fold_prefix l _) ?_⟩
      · rw [hadd, mapGet_insert, if_pos rfl]
      · rw [hadd]
        simp
    · refine addMaterial_fold_gets l _ n v hd.2 h ?_
      have hne : n ≠ m.1 := fun hn => hd.1 (hn ▸ List.mem_map_of_mem (f := (·.1)) h)
      unfold addMaterial
      split
      · exact hs
      · dsimp only
        rw [mapGet_insert, if_neg hne]
        exact hs

omit [Arith] in
/-- a map has every key once -/
theorem mapInsert_nodup {α : Type} {m : List (Str × α)} (h : (m.map (·.1)).Nodup) (k : Str) (v : α) :
    ((mapInsert m k v).map (·.1)).Nodup := by
  unfold mapInsert
  rw [List.map_append, List.nodup_append]
  refine ⟨?_, by simp, ?_⟩
  · exact h.sublist (List.filter_sublist.map _)
  · intro a ha b hb
    simp only [List.map_cons, List.map_nil, List.mem_singleton] at hb
    subst hb
    obtain ⟨e, he, rfl⟩ := List.mem_map.mp ha
    have := (List.mem_filter.mp he).2
    simpa using this

omit [Arith] in
/-- maps made from a list: the last one of a name counts -/
theorem mapOf_get {α β : Type} (name : β → Str) (f : β → α) : ∀ (l : List β) (m : List (Str × α)) (n : Str),
    mapGet (l.foldl (fun m x => mapInsert m (name x) (f x)) m) n =
      match l.reverse.find? (fun x => name x == n) with
      | some x => some (f x)
      | none => mapGet m n
  | [], m, n => rfl
  | b :: l, m, n => by
    rw [List.foldl_cons, mapOf_get name f l, List.reverse_cons, List.find?_append]
    cases hl : l.reverse.find? (fun x => name x == n) with
    | some x => rfl
    | none =>
      rw [mapGet_insert]
      by_cases hn : n = name b
      · subst hn
        simp
      · have : (name b == n) = false := by simpa using fun h => hn h.symm
        simp [hn, this]

omit [Arith] in
theorem mapOf_nodup {α β : Type} (name : β → Str) (f : β → α) : ∀ (l : List β) (m : List (Str × α)),
    (m.map (·.1)).Nodup → ((l.foldl (fun m x => mapInsert m (name x) (f x)) m).map (·.1)).Nodup
  | [], _, h => h
  | _ :: l, _, h => mapOf_nodup name f l _ (mapInsert_nodup h _ _)

theorem collectMaterials_nodup (g : GameData) : ((collectMaterials g).map (·.1)).Nodup := by
  unfold collectMaterials
  split
  · exact mapOf_nodup (fun x : Material => x.name) _ _ _ (by simp)
  · exact mapOf_nodup (fun x : SaveMaterial => x.name) _ _ _ (by simp)

omit [Arith] in
theorem find_last {β : Type} {p : β → Bool} {l a b : List β} {x : β} (h : l = a ++ x :: b) (hx : p x = true)
    (hb : ∀ y ∈ b, p y = false) : l.reverse.find? p = some x := by
  subst h
  rw [List.reverse_append, List.reverse_cons, List.append_assoc, List.find?_append]
  have : b.reverse.find? p = none := by
    rw [List.find?_eq_none]
    intro y hy
    simp [hb y (List.mem_reverse.mp hy)]
  rw [this]
  simp [hx]

/-- the material of a name that the playfield does not use -/
theorem sceneNames_get {E : GltfEnv} {g : GameData} {start : TextureState × List (Str × Nat) × List Gltf.Material}
    {n : Str} {v : GltfMaterial} (hv : mapGet (collectMaterials g) n = some v) (hs : mapGet start.2.1 n = none) :
    ∃ j, mapGet (sceneNames E (collectMaterials g) start).1 n = some j ∧
      (sceneNames E (collectMaterials g) start).2[j]? = some (tableMaterial v) := by
  have hp := E.materialOrder_perm (collectMaterials g)
  exact addMaterial_fold_gets _ _ n v ((hp.map (·.1)).nodup_iff.mpr (collectMaterials_nodup g))
    (hp.mem_iff.mpr (mapGet_mem hv)) hs

/-- of the names, the playfield has at most one -/
theorem startTextures_names {E : GltfEnv} {g : GameData} {images : List ImageData}
    {materials : List (Str × GltfMaterial)} {start : TextureState × List (Str × Nat) × List Gltf.Material}
    (h : startTextures E g images materials = .ok start) :
    (findImage images g.image = none ∧ start = (.empty, [], [])) ∨
    ∃ i bytes, findImage images g.image = some i ∧ imageBytes E i = .ok (some bytes) ∧
      start = (({ TextureState.empty with samplers := [linearSampler] }).push E.U 0 i bytes, [(g.playfieldMaterial, 0)],
        [playfieldGltfMaterial g materials 0]) := by
  unfold startTextures at h
  cases hi : findImage images g.image with
  | none =>
    rw [hi] at h
    cases h
    exact .inl ⟨rfl, rfl⟩
  | some i =>
    rw [hi] at h
    dsimp only at h
    obtain ⟨b, hb, h⟩ := Res.unbind h
    cases b with
    | none => cases h
    | some b =>
      cases h
      exact .inr ⟨i, b, rfl, hb, rfl⟩

/-! ### The image of a texture -/

/-- a texture of the state is one of the file -/
theorem textureBytes_scene {E : GltfEnv} {u : ExportUnits} {vpx : VPX} {meshes : List NamedMesh}
    {groups : List ItemGroup} {materials : List (Str × GltfMaterial)}
    {start : TextureState × List (Str × Nat) × List Gltf.Material} {textured : TextureState × List (Str × Nat)}
    {gi : List (Gltf.Light × Gltf.Node)} {t : Nat} {i : ImageData} {bytes : Bytes}
    (h : textured.1.Holds E.U t i bytes) :
    let r := sceneFile E u vpx meshes groups materials start textured gi
    r.1.textureBytes r.2 t = some bytes ∧ ∃ tx im, r.1.textures[t]? = some tx ∧ r.1.images[tx.source]? = some im ∧
      im.name = i.name ∧ im.mime = imageMime E.U i := by
  obtain ⟨tx, im, v, h1, h2, h3, h4, h5, h6, h7⟩ := h
  have hg := meshFold_grows u (materialOf E.U (sceneMaterials E vpx meshes materials start textured)
    (sceneNames E materials start).1) meshes.zipIdx ⟨textured.1.bin, textured.1.views, [], [], [], ⟨[], [], []⟩⟩
  intro r
  refine ⟨?_, tx, im, h1, h2, h4, h3⟩
  have hv : r.1.views[im.view]? = some v := prefix_get' hg.views h5
  have ht : r.1.textures[t]? = some tx := h1
  have hi : r.1.images[tx.source]? = some im := h2
  unfold Gltf.File.textureBytes
  simp only [ht, hi, hv, Option.bind_eq_bind, Option.bind_some]
  have hp : textured.1.bin <+: r.2 := hg.bin.trans (pad4_prefix _)
  exact congrArg some ((viewBytes_grow h6 hp).trans h7)

end
end Vpin
