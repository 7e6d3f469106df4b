import Verif.Lemmas.GltfNodes
import Verif.Lemmas.Gltf
/-! Helper lemmas: the binary data, views, accessors, textures and materials of the glTF file. -/
namespace Vpin
open Gltf (Node View Fills)

/-! ### Views in growing data -/

/-- the views are in the data, one behind the other -/
structure Laid (views : List View) (bin : Bytes) : Prop where
  inside : ∀ v ∈ views, v.offset + v.length ≤ bin.length
  ordered : views.Pairwise fun v w => v.offset + v.length ≤ w.offset

theorem Laid.nil (bin : Bytes) : Laid [] bin := ⟨by simp, List.Pairwise.nil⟩

theorem Laid.add {views : List View} {bin : Bytes} (h : Laid views bin) (v : View) (ho : bin.length ≤ v.offset)
    (bin' : Bytes) (hb : v.offset + v.length ≤ bin'.length) (hl : bin.length ≤ bin'.length) : Laid (views ++ [v]) bin' where
  inside := by
    intro w hw
    rcases List.mem_append.mp hw with hw | hw
    · exact Nat.le_trans (h.inside w hw) hl
    · rw [List.mem_singleton.mp hw]
      exact hb
  ordered := by
    rw [List.pairwise_append]
    refine ⟨h.ordered, List.pairwise_singleton _ _, ?_⟩
    intro a ha b hb'
    rw [List.mem_singleton.mp hb']
    exact Nat.le_trans (h.inside a ha) ho

theorem Laid.grow {views : List View} {bin : Bytes} (h : Laid views bin) {bin' : Bytes} (hl : bin.length ≤ bin'.length) :
    Laid views bin' := ⟨fun v hv => Nat.le_trans (h.inside v hv) hl, h.ordered⟩

theorem pad4_prefix (bs : Bytes) : bs <+: pad4 bs := ⟨_, rfl⟩

theorem pad4_length (bs : Bytes) : bs.length ≤ (pad4 bs).length := (pad4_prefix bs).length_le

theorem viewBytes_grow {v : View} {bin bin' : Bytes} (h : v.offset + v.length ≤ bin.length) (hp : bin <+: bin') :
    v.bytes bin' = v.bytes bin := by
  obtain ⟨t, rfl⟩ := hp
  unfold View.bytes
  rw [List.drop_append_of_le_length (by omega), List.take_append_of_le_length (by rw [List.length_drop]; omega)]

theorem viewBytes_new (pre bs rest : Bytes) (o n : Nat) (t : Option Nat) (ho : o = pre.length) (hn : n = bs.length) :
    (⟨o, n, t⟩ : View).bytes (pre ++ bs ++ rest) = bs := by
  unfold View.bytes
  subst ho hn
  dsimp only
  rw [List.append_assoc, List.drop_left, List.take_left]

/-! ### Textures -/

/-- texture `t` is this image, with this data -/
def TextureState.Holds (U : Unicode) (s : TextureState) (t : Nat) (i : ImageData) (bytes : Bytes) : Prop :=
  ∃ tx im v, s.textures[t]? = some tx ∧ s.images[tx.source]? = some im ∧ im.mime = imageMime U i ∧ im.name = i.name ∧
    s.views[im.view]? = some v ∧ v.offset + v.length ≤ s.bin.length ∧ v.bytes s.bin = bytes

structure TexturesGood (s : TextureState) : Prop where
  laid : Laid s.views s.bin
  views : s.images.map (·.view) = List.range s.views.length
  textures : ∀ t ∈ s.textures, t.sampler < s.samplers.length ∧ t.source < s.images.length
  same : s.textures.length = s.images.length

theorem TexturesGood.empty : TexturesGood .empty := ⟨.nil _, rfl, by simp [TextureState.empty], rfl⟩

theorem TexturesGood.sampler {s : TextureState} (h : TexturesGood s) (x : List Gltf.Sampler) (hx : s.samplers.length ≤ x.length) :
    TexturesGood { s with samplers := x } :=
  ⟨h.laid, h.views, fun t ht => ⟨Nat.lt_of_lt_of_le (h.textures t ht).1 hx, (h.textures t ht).2⟩, h.same⟩

theorem TexturesGood.push {U : Unicode} {s : TextureState} (h : TexturesGood s) (hs : 0 < s.samplers.length) (i : ImageData)
    (bytes : Bytes) : TexturesGood (s.push U 0 i bytes) where
  laid := by
    refine h.laid.add _ (Nat.le_refl _) _ ?_ ?_
    · refine Nat.le_trans ?_ (pad4_length _)
      rw [List.length_append]
      exact Nat.le_refl _
    · refine Nat.le_trans ?_ (pad4_length _)
      rw [List.length_append]
      exact Nat.le_add_right _ _
  views := by
    simp only [TextureState.push, List.map_append, List.map_cons, List.map_nil, List.length_append, List.length_singleton,
      range_snoc, h.views]
  textures := by
    intro t ht
    rw [show (s.push U 0 i bytes).images.length = s.images.length + 1 from by simp [TextureState.push]]
    rcases List.mem_append.mp ht with ht | ht
    · exact ⟨(h.textures t ht).1, Nat.lt_succ_of_lt (h.textures t ht).2⟩
    · rw [List.mem_singleton.mp ht]
      exact ⟨hs, Nat.lt_succ_self _⟩
  same := by simp [TextureState.push, h.same]

theorem getElem?_snoc_old {α : Type} {l : List α} {i : Nat} {a b : α} (h : l[i]? = some a) : (l ++ [b])[i]? = some a := by
  rw [List.getElem?_append_left (List.getElem?_eq_some_iff.mp h).1]
  exact h

theorem push_prefix (U : Unicode) (s : TextureState) (k : Nat) (i : ImageData) (bytes : Bytes) :
    s.bin <+: (s.push U k i bytes).bin := (List.prefix_append _ _).trans (pad4_prefix _)

theorem TextureState.Holds.push {U : Unicode} {s : TextureState} {t : Nat} {i : ImageData} {bytes : Bytes}
    (h : s.Holds U t i bytes) (k : Nat) (j : ImageData) (bs : Bytes) : (s.push U k j bs).Holds U t i bytes := by
  obtain ⟨tx, im, v, h1, h2, h3, h4, h5, h6, h7⟩ := h
  have hp := push_prefix U s k j bs
  exact ⟨tx, im, v, getElem?_snoc_old h1, getElem?_snoc_old h2, h3, h4, getElem?_snoc_old h5,
    Nat.le_trans h6 hp.length_le, (viewBytes_grow h6 hp).trans h7⟩

theorem TextureState.holds_new (U : Unicode) (s : TextureState) (hs : TexturesGood s) (k : Nat) (i : ImageData) (bytes : Bytes) :
    (s.push U k i bytes).Holds U s.textures.length i bytes := by
  have hv : s.images.length = s.views.length := by simpa using congrArg List.length hs.views
  refine ⟨_, _, ⟨s.bin.length, bytes.length, none⟩, List.getElem?_concat_length, List.getElem?_concat_length, rfl, rfl,
    List.getElem?_concat_length, ?_, ?_⟩
  · refine Nat.le_trans ?_ (pad4_length _)
    rw [List.length_append]
    exact Nat.le_refl _
  · exact viewBytes_new _ _ _ _ _ _ rfl rfl

theorem mem_mapInsert {α : Type} {m : List (Str × α)} {k : Str} {v : α} {e : Str × α} (h : e ∈ mapInsert m k v) :
    e ∈ m ∨ e = (k, v) := by
  rcases List.mem_append.mp h with h | h
  · exact .inl (List.mem_filter.mp h).1
  · exact .inr (List.mem_singleton.mp h)

theorem mapGet_insert {α : Type} (m : List (Str × α)) (k : Str) (v : α) (x : Str) :
    mapGet (mapInsert m k v) x = if x = k then some v else mapGet m x := by
  unfold mapGet mapInsert
  rw [List.find?_append]
  by_cases hx : x = k
  · subst hx
    rw [if_pos rfl]
    have : (m.filter fun e => e.1 != x).find? (fun e => e.1 == x) = none := by
      rw [List.find?_eq_none]
      intro e he
      have := (List.mem_filter.mp he).2
      simpa using this
    rw [this]
    simp
  · rw [if_neg hx]
    have hk : ((k, v) :: ([] : List (Str × α))).find? (fun e => e.1 == x) = none := by
      simp [Ne.symm hx]
    rw [hk, Option.or_none, List.find?_filter]
    congr 1
    induction m with
    | nil => rfl
    | cons e m ih =>
      simp only [List.find?_cons]
      by_cases he : e.1 = x
      · have : e.1 ≠ k := fun h => hx (he.symm.trans h)
        simp [he, hx]
      · have h1 : (e.1 == x) = false := by simpa using he
        simp only [h1, Bool.false_eq_true, and_false, decide_false]
        exact ih

/-- the map from names to textures is right -/
structure TexturesOf (E : GltfEnv) (images : List ImageData) (s : TextureState × List (Str × Nat)) : Prop where
  good : TexturesGood s.1
  map : ∀ k t, mapGet s.2 k = some t → t < s.1.textures.length ∧
    ∃ i bytes, mappedImage E.U images k = some i ∧ imageBytes E i = .ok (some bytes) ∧ s.1.Holds E.U t i bytes

theorem TexturesOf.add {E : GltfEnv} {images : List ImageData} {s s' : TextureState × List (Str × Nat)} {name : Str}
    (h : TexturesOf E images s) (hs : addTexture E images s name = .ok s') :
    TexturesOf E images s' ∧ (∀ k t, mapGet s.2 k = some t → mapGet s'.2 k = some t) ∧
    ∀ i bytes, mappedImage E.U images (E.U.lower name) = some i → imageBytes E i = .ok (some bytes) →
      (mapGet s'.2 (E.U.lower name)).isSome := by
  unfold addTexture at hs
  by_cases hm : (mapGet s.2 (E.U.lower name)).isSome = true
  · dsimp only at hs
    rw [if_pos hm] at hs
    cases hs
    exact ⟨h, fun _ _ h => h, fun _ _ _ _ => hm⟩
  dsimp only at hs
  rw [if_neg hm] at hs
  cases hi : mappedImage E.U images (E.U.lower name) with
  | none =>
    rw [hi] at hs
    cases hs
    exact ⟨h, fun _ _ h => h, fun _ _ h => by cases h⟩
  | some i =>
    rw [hi] at hs
    obtain ⟨b, hb, hs⟩ := Res.unbind hs
    cases b with
    | none =>
      cases hs
      refine ⟨h, fun _ _ h => h, fun j bytes hj hbj => ?_⟩
      cases hj
      rw [hb] at hbj
      cases hbj
    | some bytes =>
      have hs' : s' = (TextureState.push E.U
        (if s.1.samplers.isEmpty = true then { s.1 with samplers := [linearSampler] } else s.1) 0 i bytes,
        mapInsert s.2 (E.U.lower name)
          (if s.1.samplers.isEmpty = true then { s.1 with samplers := [linearSampler] } else s.1).textures.length) := by
        cases hs
        rfl
      generalize ht : (if s.1.samplers.isEmpty = true then { s.1 with samplers := [linearSampler] } else s.1) = t at hs'
      have htx : t.textures = s.1.textures ∧ t.images = s.1.images ∧ t.views = s.1.views ∧ t.bin = s.1.bin := by
        rw [← ht]
        split <;> exact ⟨rfl, rfl, rfl, rfl⟩
      have hgood : TexturesGood t ∧ 0 < t.samplers.length := by
        rw [← ht]
        by_cases he : s.1.samplers.isEmpty = true
        · rw [if_pos he]
          have : s.1.samplers = [] := List.isEmpty_iff.mp he
          exact ⟨h.good.sampler _ (by rw [this]; simp), by simp⟩
        · rw [if_neg he]
          refine ⟨h.good, ?_⟩
          cases hl : s.1.samplers with
          | nil => rw [hl] at he; simp at he
          | cons a l => simp
      have hold : ∀ t' i bytes, s.1.Holds E.U t' i bytes → t.Holds E.U t' i bytes := by
        intro t' i bytes hh
        unfold TextureState.Holds at hh ⊢
        rw [htx.1, htx.2.1, htx.2.2.1, htx.2.2.2]
        exact hh
      subst hs'
      refine ⟨⟨hgood.1.push hgood.2 i bytes, ?_⟩, ?_, ?_⟩
      · intro k t' hk
        rw [mapGet_insert] at hk
        have hlen : (t.push E.U 0 i bytes).textures.length = t.textures.length + 1 := by simp [TextureState.push]
        by_cases hkn : k = E.U.lower name
        · rw [if_pos hkn] at hk
          cases hk
          refine ⟨by rw [hlen]; omega, i, bytes, hkn ▸ hi, hb, TextureState.holds_new _ _ hgood.1 _ _ _⟩
        · rw [if_neg hkn] at hk
          obtain ⟨h1, j, bj, h2, h3, h4⟩ := h.map k t' hk
          exact ⟨by rw [hlen, htx.1]; omega, j, bj, h2, h3, (hold _ _ _ h4).push _ _ _⟩
      · intro k t' hk
        rw [mapGet_insert, if_neg]
        · exact hk
        · rintro rfl
          rw [hk] at hm
          exact hm rfl
      · intro _ _ _ _
        rw [mapGet_insert, if_pos rfl]
        rfl

theorem TexturesOf.fold {E : GltfEnv} {images : List ImageData} : ∀ {names : List Str}
    {s s' : TextureState × List (Str × Nat)}, TexturesOf E images s → names.foldlM (addTexture E images) s = .ok s' →
    TexturesOf E images s' ∧ (∀ k t, mapGet s.2 k = some t → mapGet s'.2 k = some t) ∧
    ∀ name ∈ names, ∀ i bytes, mappedImage E.U images (E.U.lower name) = some i → imageBytes E i = .ok (some bytes) →
      (mapGet s'.2 (E.U.lower name)).isSome
  | [], s, s', h, hs => by
    cases hs
    exact ⟨h, fun _ _ h => h, by simp⟩
  | n :: names, s, s', h, hs => by
    rw [List.foldlM_cons] at hs
    obtain ⟨t, ht, hs⟩ := Res.unbind hs
    obtain ⟨h1, h2, h3⟩ := h.add ht
    obtain ⟨h4, h5, h6⟩ := h1.fold hs
    refine ⟨h4, fun k t hk => h5 k t (h2 k t hk), ?_⟩
    intro name hn i bytes hi hb
    rcases List.mem_cons.mp hn with rfl | hn
    · obtain ⟨t', ht'⟩ := Option.isSome_iff_exists.mp (h3 i bytes hi hb)
      rw [h5 _ _ ht']
      rfl
    · exact h6 name hn i bytes hi hb

theorem startTextures_good [Arith] {E : GltfEnv} {g : GameData} {images : List ImageData}
    {materials : List (Str × GltfMaterial)} {r : TextureState × List (Str × Nat) × List Gltf.Material}
    (h : startTextures E g images materials = .ok r) :
    TexturesGood r.1 ∧ (∀ e ∈ r.2.1, e.2 < r.2.2.length) ∧
    ∀ m ∈ r.2.2, m.transmission = none ∧ ∀ t, m.texture = some t → t < r.1.textures.length := by
  unfold startTextures at h
  cases hi : findImage images g.image with
  | none =>
    rw [hi] at h
    cases h
    exact ⟨.empty, by simp, by simp⟩
  | some i =>
    rw [hi] at h
    obtain ⟨b, hb, h⟩ := Res.unbind h
    obtain ⟨bytes, hu, h⟩ := Res.unbind h
    cases h
    refine ⟨(TexturesGood.empty.sampler [linearSampler] (by simp [TextureState.empty])).push (by simp) i bytes, by simp, ?_⟩
    intro m hm
    rw [List.mem_singleton.mp hm]
    refine ⟨rfl, ?_⟩
    intro t ht
    cases ht
    simp [TextureState.push, TextureState.empty]

/-! ### Materials -/

section
variable [Arith]

/-- a material with an index below the number of materials for every name -/
structure Named (s : List (Str × Nat) × List Gltf.Material) (nt : Nat) : Prop where
  map : ∀ e ∈ s.1, e.2 < s.2.length
  plain : ∀ m ∈ s.2, m.transmission = none ∧ ∀ t, m.texture = some t → t < nt

omit [Arith] in
theorem blendIf_texture (b : Bool) (m : Gltf.Material) : (blendIf b m).texture = m.texture := by
  unfold blendIf
  split <;> rfl

omit [Arith] in
theorem blendIf_transmission (b : Bool) (m : Gltf.Material) : (blendIf b m).transmission = m.transmission := by
  unfold blendIf
  split <;> rfl

theorem Named.add {s : List (Str × Nat) × List Gltf.Material} {nt : Nat} (h : Named s nt) (m : Str × GltfMaterial) :
    Named (addMaterial s m) nt := by
  unfold addMaterial
  by_cases hm : (mapGet s.1 m.1).isSome = true
  · rw [if_pos hm]
    exact h
  · rw [if_neg hm]
    refine ⟨?_, ?_⟩
    · intro e he
      rw [List.length_append, List.length_singleton]
      rcases mem_mapInsert he with he | rfl
      · exact Nat.lt_succ_of_lt (h.map e he)
      · exact Nat.lt_succ_self _
    · intro x hx
      rcases List.mem_append.mp hx with hx | hx
      · exact h.plain x hx
      · rw [List.mem_singleton.mp hx, blendIf_texture, blendIf_transmission]
        exact ⟨rfl, fun t ht => by cases ht⟩

theorem Named.fold {nt : Nat} : ∀ {l : List (Str × GltfMaterial)} {s : List (Str × Nat) × List Gltf.Material},
    Named s nt → Named (l.foldl addMaterial s) nt
  | [], _, h => h
  | m :: l, _, h => Named.fold (l := l) (h.add m)

/-- the texture of a material of a mesh is one of the textures -/
theorem meshMaterial_texture {E : GltfEnv} {g : GameData} {images : List ImageData}
    {materials : List (Str × GltfMaterial)} {textures : List (Str × Nat)} {m : NamedMesh} {k : Option Str}
    {x : Gltf.Material} (h : meshMaterial E g images materials textures m = some (k, x)) {t : Nat}
    (ht : x.texture = some t) : ∃ name, m.texture = some name ∧ mapGet textures (E.U.lower name) = some t := by
  unfold meshMaterial at h
  dsimp only at h
  repeat' split at h
  all_goals first
    | cases h
      done
    | (simp only [Option.some.injEq, Prod.mk.injEq] at h
       obtain ⟨rfl, rfl⟩ := h
       simp only [blendIf_texture, newMaterial, Option.bind_eq_some_iff, Option.some.injEq, reduceCtorEq] at ht <;>
       first
        | exact ht
        | (subst ht
           first
            | exact ⟨_, by assumption, by assumption⟩
            | exact Option.bind_eq_some_iff.mp (by assumption)))

/-- a material of a mesh has transmission if the mesh has -/
theorem meshMaterial_transmission {E : GltfEnv} {g : GameData} {images : List ImageData}
    {materials : List (Str × GltfMaterial)} {textures : List (Str × Nat)} {m : NamedMesh} :
    m.transmits = true ↔ ∃ k x, meshMaterial E g images materials textures m = some (k, x) ∧ x.transmission.isSome := by
  unfold NamedMesh.transmits meshMaterial
  dsimp only
  by_cases hb : m.isBall = true
  · rw [if_pos hb]
    constructor
    · intro h
      simp [hb] at h
    · rintro ⟨k, x, h, hx⟩
      cases h
      cases hx
  rw [if_neg hb]
  have hb' : m.isBall = false := by simpa using hb
  cases ht : m.tint with
  | some tint =>
    constructor
    · intro h
      simp at h
    · rintro ⟨k, x, h, hx⟩
      cases h
      rw [blendIf_transmission] at hx
      cases hx
  | none =>
    cases htr : m.transmission with
    | some tr =>
      dsimp only
      by_cases hp : Arith.lt (0 : F32) tr = true
      · rw [if_pos hp]
        constructor
        · intro _
          cases m.texture.bind fun name => mapGet textures (E.U.lower name) with
          | some t => exact ⟨_, _, rfl, by rw [blendIf_transmission]; rfl⟩
          | none => exact ⟨_, _, rfl, by rw [blendIf_transmission]; rfl⟩
        · intro _
          simp [hb', hp]
      · rw [if_neg hp]
        constructor
        · intro h
          simp [hp] at h
        · rintro ⟨k, x, h, hx⟩
          cases h
    | none =>
      constructor
      · intro h
        simp at h
      · rintro ⟨k, x, h, hx⟩
        dsimp only at h
        repeat' split at h
        all_goals first
          | cases h
            done
          | (simp only [Option.some.injEq, Prod.mk.injEq] at h
             obtain ⟨rfl, rfl⟩ := h
             rw [blendIf_transmission] at hx
             cases hx)

/-- what the second pass over the meshes makes -/
structure Made (nt : Nat) (s : MaterialState) : Prop where
  textures : ∀ m ∈ s.materials, ∀ t, m.texture = some t → t < nt
  ofMesh : ∀ e ∈ s.ofMesh, e.2 < s.materials.length
  ofTexture : ∀ e ∈ s.ofTexture, e.2 < s.materials.length

theorem meshMaterial_shared {E : GltfEnv} {g : GameData} {images : List ImageData}
    {materials : List (Str × GltfMaterial)} {textures : List (Str × Nat)} {m : NamedMesh} {key : Str}
    {x : Gltf.Material} (h : meshMaterial E g images materials textures m = some (some key, x)) :
    m.isBall = false ∧ m.tint = none ∧ m.transmission = none := by
  unfold meshMaterial at h
  dsimp only at h
  by_cases hb : m.isBall = true
  · rw [if_pos hb] at h
    cases h
  rw [if_neg hb] at h
  refine ⟨by simpa using hb, ?_⟩
  cases ht : m.tint with
  | some tint => rw [ht] at h; cases h
  | none =>
    refine ⟨rfl, ?_⟩
    rw [ht] at h
    cases htr : m.transmission with
    | none => rfl
    | some tr =>
      rw [htr] at h
      dsimp only at h
      repeat' split at h
      all_goals cases h

theorem Made.add {E : GltfEnv} {g : GameData} {images : List ImageData} {materials : List (Str × GltfMaterial)}
    {textures : List (Str × Nat)} {nt : Nat} (ht : ∀ k t, mapGet textures k = some t → t < nt) {s : MaterialState}
    (h : Made nt s) (m : NamedMesh × Nat) :
    Made nt (addMeshMaterial E g images materials textures s m) ∧
    s.materials <+: (addMeshMaterial E g images materials textures s m).materials ∧
    ((∃ x ∈ (addMeshMaterial E g images materials textures s m).materials, x.transmission.isSome) ↔
      m.1.transmits = true ∨ ∃ x ∈ s.materials, x.transmission.isSome) := by
  have hx := meshMaterial_transmission (E := E) (g := g) (images := images) (materials := materials)
    (textures := textures) (m := m.1)
  unfold addMeshMaterial
  cases hm : meshMaterial E g images materials textures m.1 with
  | none =>
    rw [hm] at hx
    refine ⟨h, List.prefix_refl _, ?_⟩
    constructor
    · exact .inr
    · rintro (h' | h')
      · obtain ⟨k, x, h1, _⟩ := hx.mp h'
        cases h1
      · exact h'
  | some kx =>
    obtain ⟨k, x⟩ := kx
    have hxt : ∀ t, x.texture = some t → t < nt := fun t h1 => by
      obtain ⟨name, _, h2⟩ := meshMaterial_texture hm h1
      exact ht _ t h2
    have htr : m.1.transmits = true ↔ x.transmission.isSome = true := by
      rw [hx, hm]
      constructor
      · rintro ⟨k', x', h1, h2⟩
        cases h1
        exact h2
      · exact fun h => ⟨k, x, rfl, h⟩
    have hmem : ∀ m ∈ s.materials ++ [x], ∀ t, m.texture = some t → t < nt := by
      intro y hy
      rcases List.mem_append.mp hy with hy | hy
      · exact h.textures y hy
      · rw [List.mem_singleton.mp hy]
        exact hxt
    have htr' : (∃ y ∈ s.materials ++ [x], y.transmission.isSome = true) ↔
        m.1.transmits = true ∨ ∃ x ∈ s.materials, x.transmission.isSome = true := by
      rw [htr]
      constructor
      · rintro ⟨y, hy, h1⟩
        rcases List.mem_append.mp hy with hy | hy
        · exact .inr ⟨y, hy, h1⟩
        · rw [List.mem_singleton.mp hy] at h1
          exact .inl h1
      · rintro (h1 | ⟨y, hy, h1⟩)
        · exact ⟨x, by simp, h1⟩
        · exact ⟨y, by simp [hy], h1⟩
    cases k with
    | none =>
      refine ⟨⟨hmem, ?_, ?_⟩, List.prefix_append _ _, htr'⟩
      · intro e he
        show e.2 < (s.materials ++ [x]).length
        rw [List.length_append, List.length_singleton]
        rcases List.mem_append.mp he with he | he
        · exact Nat.lt_succ_of_lt (h.ofMesh e he)
        · rw [List.mem_singleton.mp he]
          exact Nat.lt_succ_self _
      · intro e he
        show e.2 < (s.materials ++ [x]).length
        rw [List.length_append, List.length_singleton]
        exact Nat.lt_succ_of_lt (h.ofTexture e he)
    | some key =>
      dsimp only
      by_cases hk : (mapGet s.ofTexture key).isSome = true
      · rw [if_pos hk]
        refine ⟨h, List.prefix_refl _, ?_⟩
        obtain ⟨_, h2, h3⟩ := meshMaterial_shared hm
        constructor
        · exact .inr
        · rintro (h' | h')
          · simp [NamedMesh.transmits, h3] at h'
          · exact h'
      · rw [if_neg hk]
        refine ⟨⟨hmem, ?_, ?_⟩, List.prefix_append _ _, htr'⟩
        · intro e he
          show e.2 < (s.materials ++ [x]).length
          rw [List.length_append, List.length_singleton]
          exact Nat.lt_succ_of_lt (h.ofMesh e he)
        · intro e he
          show e.2 < (s.materials ++ [x]).length
          rw [List.length_append, List.length_singleton]
          rcases mem_mapInsert he with he | rfl
          · exact Nat.lt_succ_of_lt (h.ofTexture e he)
          · exact Nat.lt_succ_self _

theorem Made.fold {E : GltfEnv} {g : GameData} {images : List ImageData} {materials : List (Str × GltfMaterial)}
    {textures : List (Str × Nat)} {nt : Nat} (ht : ∀ k t, mapGet textures k = some t → t < nt) :
    ∀ {l : List (NamedMesh × Nat)} {s : MaterialState}, Made nt s →
    Made nt (l.foldl (addMeshMaterial E g images materials textures) s) ∧
    s.materials <+: (l.foldl (addMeshMaterial E g images materials textures) s).materials ∧
    ((∃ x ∈ (l.foldl (addMeshMaterial E g images materials textures) s).materials, x.transmission.isSome) ↔
      (∃ m ∈ l, m.1.transmits = true) ∨ ∃ x ∈ s.materials, x.transmission.isSome)
  | [], s, h => ⟨h, List.prefix_refl _, by simp⟩
  | m :: l, s, h => by
    obtain ⟨h1, h2, h3⟩ := h.add (E := E) (g := g) (images := images) (materials := materials) ht m
    obtain ⟨h4, h5, h6⟩ := Made.fold (E := E) (g := g) (images := images) (materials := materials) ht (l := l) h1
    refine ⟨h4, h2.trans h5, ?_⟩
    rw [List.foldl_cons, h6, h3]
    constructor
    · rintro (⟨x, hx, h⟩ | h | h)
      · exact .inl ⟨x, by simp [hx], h⟩
      · exact .inl ⟨m, by simp, h⟩
      · exact .inr h
    · rintro (⟨x, hx, h⟩ | h)
      · rcases List.mem_cons.mp hx with rfl | hx
        · exact .inr (.inl h)
        · exact .inl ⟨x, hx, h⟩
      · exact .inr (.inr h)

omit [Arith] in
theorem materialOf_lt {U : Unicode} {nt : Nat} {s : MaterialState} {names : List (Str × Nat)} (h : Made nt s)
    (hn : ∀ e ∈ names, e.2 < s.materials.length) {m : NamedMesh × Nat} {k : Nat} (hk : materialOf U s names m = some k) :
    k < s.materials.length := by
  unfold materialOf at hk
  cases hf : s.ofMesh.find? (fun e => e.1 == m.2) with
  | some e =>
    rw [hf] at hk
    cases hk
    exact h.ofMesh e (List.mem_of_find?_eq_some hf)
  | none =>
    rw [hf] at hk
    cases ht : m.1.texture with
    | some t =>
      rw [ht] at hk
      exact h.ofTexture _ (mapGet_mem hk)
    | none =>
      rw [ht] at hk
      obtain ⟨x, _, hx⟩ := Option.bind_eq_some_iff.mp hk
      exact hn _ (mapGet_mem hx)

/-! ### Meshes -/

theorem scenePositions_length (u : ExportUnits) (vs : List Vertex) : (scenePositions u vs).length = vs.length * 12 := by
  rw [scenePositions, flatMap_length_const _ 12 (fun _ => rfl), Nat.mul_comm]

omit [Arith] in
theorem sceneNormals_length (vs : List Vertex) : (sceneNormals vs).length = vs.length * 12 := by
  rw [sceneNormals, flatMap_length_const _ 12 (fun _ => rfl), Nat.mul_comm]

omit [Arith] in
theorem sceneTexcoords_length (vs : List Vertex) : (sceneTexcoords vs).length = vs.length * 8 := by
  rw [sceneTexcoords, flatMap_length_const _ 8 (fun _ => rfl), Nat.mul_comm]

omit [Arith] in
theorem sceneIndices_length (wide : Bool) (fs : List Face) :
    (sceneIndices wide fs).length = fs.length * 3 * (if wide then 4 else 2) := by
  cases wide with
  | true =>
    rw [sceneIndices, flatMap_length_const _ 12 (fun _ => rfl)]
    simp
    omega
  | false =>
    rw [sceneIndices, flatMap_length_const _ 6 (fun _ => rfl)]
    simp
    omega

/-- the parts of a state stay where they are -/
structure MeshState.Grows (s t : MeshState) : Prop where
  bin : s.bin <+: t.bin
  views : s.views <+: t.views
  accessors : s.accessors <+: t.accessors
  meshes : s.meshes <+: t.meshes
  nodes : s.nodes <+: t.nodes

omit [Arith] in
theorem MeshState.Grows.refl (s : MeshState) : s.Grows s :=
  ⟨List.prefix_refl _, List.prefix_refl _, List.prefix_refl _, List.prefix_refl _, List.prefix_refl _⟩

omit [Arith] in
theorem MeshState.Grows.trans {s t r : MeshState} (h : s.Grows t) (h' : t.Grows r) : s.Grows r :=
  ⟨h.bin.trans h'.bin, h.views.trans h'.views, h.accessors.trans h'.accessors, h.meshes.trans h'.meshes,
    h.nodes.trans h'.nodes⟩

theorem addMesh_grows (u : ExportUnits) (mat : NamedMesh × Nat → Option Nat) (s : MeshState) (m : NamedMesh × Nat) :
    s.Grows (addMesh u mat s m) where
  bin := ⟨scenePositions u m.1.vertices ++ (sceneNormals m.1.vertices ++ (sceneTexcoords m.1.vertices
    ++ sceneIndices (m.1.vertices.length > 65535) m.1.faces)), by simp [addMesh]⟩
  views := List.prefix_append _ _
  accessors := List.prefix_append _ _
  meshes := List.prefix_append _ _
  nodes := List.prefix_append _ _

theorem meshFold_grows (u : ExportUnits) (mat : NamedMesh × Nat → Option Nat) : ∀ (l : List (NamedMesh × Nat))
    (s : MeshState), s.Grows (l.foldl (addMesh u mat) s)
  | [], s => .refl s
  | m :: l, s => (addMesh_grows u mat s m).trans (meshFold_grows u mat l _)

theorem meshFold_lengths (u : ExportUnits) (mat : NamedMesh × Nat → Option Nat) : ∀ (l : List (NamedMesh × Nat))
    (s : MeshState), (l.foldl (addMesh u mat) s).views.length = s.views.length + 4 * l.length ∧
      (l.foldl (addMesh u mat) s).accessors.length = s.accessors.length + 4 * l.length ∧
      (l.foldl (addMesh u mat) s).meshes.length = s.meshes.length + l.length ∧
      (l.foldl (addMesh u mat) s).nodes.length = s.nodes.length + l.length
  | [], s => ⟨rfl, rfl, rfl, rfl⟩
  | m :: l, s => by
    obtain ⟨h1, h2, h3, h4⟩ := meshFold_lengths u mat l (addMesh u mat s m)
    simp only [addMesh, List.length_append, List.length_cons, List.length_nil] at h1 h2 h3 h4
    rw [List.length_cons, List.foldl_cons]
    simp only [addMesh]
    omega

/-- the state in which mesh `k` is added -/
theorem meshFold_at {u : ExportUnits} {mat : NamedMesh × Nat → Option Nat} {l : List (NamedMesh × Nat)} {k : Nat}
    {m : NamedMesh × Nat} (hk : l[k]? = some m) (s : MeshState) :
    ∃ t : MeshState, s.Grows t ∧ (addMesh u mat t m).Grows (l.foldl (addMesh u mat) s) ∧
      t.views.length = s.views.length + 4 * k ∧ t.accessors.length = s.accessors.length + 4 * k ∧
      t.meshes.length = s.meshes.length + k ∧ t.nodes.length = s.nodes.length + k := by
  obtain ⟨hlt, rfl⟩ := List.getElem?_eq_some_iff.mp hk
  have hsplit : l = l.take k ++ l[k] :: l.drop (k + 1) := by
    rw [List.getElem_cons_drop, List.take_append_drop]
  refine ⟨(l.take k).foldl (addMesh u mat) s, meshFold_grows _ _ _ _, ?_, ?_⟩
  · conv => rhs; rw [hsplit]
    rw [List.foldl_append, List.foldl_cons]
    exact meshFold_grows _ _ _ _
  · have := meshFold_lengths u mat (l.take k) s
    rw [List.length_take, Nat.min_eq_left (Nat.le_of_lt hlt)] at this
    exact this

structure MeshState.Good (v0 : Nat) (s : MeshState) : Prop where
  laid : Laid s.views s.bin
  views : s.views.length = v0 + s.accessors.length
  used : s.accessors.map (·.view) = List.range' v0 s.accessors.length
  fills : ∀ a ∈ s.accessors, ∃ v, s.views[a.view]? = some v ∧ Fills a v
  hung : Hung s.nodes s.place

theorem MeshState.Good.add {v0 : Nat} {u : ExportUnits} {mat : NamedMesh × Nat → Option Nat} {s : MeshState}
    (h : s.Good v0) (m : NamedMesh × Nat) : (addMesh u mat s m).Good v0 := by
  have hg := addMesh_grows u mat s m
  refine ⟨?_, ?_, ?_, ?_, ?_⟩
  · have h1 := h.laid.add ⟨s.bin.length, (scenePositions u m.1.vertices).length, some 34962⟩ (Nat.le_refl _)
      (s.bin ++ scenePositions u m.1.vertices) (by simp) (by simp)
    have h2 := h1.add ⟨s.bin.length + (scenePositions u m.1.vertices).length, (sceneNormals m.1.vertices).length,
      some 34962⟩ (by simp) (s.bin ++ scenePositions u m.1.vertices ++ sceneNormals m.1.vertices)
      (by simp [Nat.add_assoc]) (by simp)
    have h3 := h2.add ⟨s.bin.length + (scenePositions u m.1.vertices).length + (sceneNormals m.1.vertices).length,
      (sceneTexcoords m.1.vertices).length, some 34962⟩ (by simp [Nat.add_assoc])
      (s.bin ++ scenePositions u m.1.vertices ++ sceneNormals m.1.vertices ++ sceneTexcoords m.1.vertices)
      (by simp [Nat.add_assoc]) (by simp)
    have h4 := h3.add ⟨s.bin.length + (scenePositions u m.1.vertices).length + (sceneNormals m.1.vertices).length +
      (sceneTexcoords m.1.vertices).length, (sceneIndices (m.1.vertices.length > 65535) m.1.faces).length, some 34963⟩
      (by simp [Nat.add_assoc]) (addMesh u mat s m).bin (by simp [addMesh, Nat.add_assoc])
      (by simp [addMesh])
    simp only [List.append_assoc, List.singleton_append] at h4
    exact h4
  · simp only [addMesh, List.length_append, List.length_cons, List.length_nil, h.views]
    omega
  · have : (addMesh u mat s m).accessors.length = s.accessors.length + 4 := by simp [addMesh]
    rw [this, ← List.range'_append_1, ← h.used]
    simp only [addMesh, List.map_append, List.map_cons, List.map_nil, h.views]
    rfl
  · intro a ha
    rcases List.mem_append.mp ha with ha | ha
    · obtain ⟨v, hv, hf⟩ := h.fills a ha
      obtain ⟨t, ht⟩ := hg.views
      refine ⟨v, ?_, hf⟩
      rw [← ht, List.getElem?_append_left (List.getElem?_eq_some_iff.mp hv).1]
      exact hv
    · have hv : ∀ j, (addMesh u mat s m).views[s.views.length + j]? =
          ([⟨s.bin.length, (scenePositions u m.1.vertices).length, some 34962⟩,
            ⟨s.bin.length + (scenePositions u m.1.vertices).length, (sceneNormals m.1.vertices).length, some 34962⟩,
            ⟨s.bin.length + (scenePositions u m.1.vertices).length + (sceneNormals m.1.vertices).length,
              (sceneTexcoords m.1.vertices).length, some 34962⟩,
            ⟨s.bin.length + (scenePositions u m.1.vertices).length + (sceneNormals m.1.vertices).length
              + (sceneTexcoords m.1.vertices).length,
              (sceneIndices (m.1.vertices.length > 65535) m.1.faces).length, some 34963⟩] : List View)[j]? := by
        intro j
        show (s.views ++ _)[s.views.length + j]? = _
        rw [List.getElem?_append_right (Nat.le_add_right _ _), Nat.add_sub_cancel_left]
      simp only [List.mem_cons, List.not_mem_nil, or_false] at ha
      rcases ha with rfl | rfl | rfl | rfl
      · exact ⟨_, hv 0, 4, 3, rfl, rfl, scenePositions_length _ _⟩
      · exact ⟨_, hv 1, 4, 3, rfl, rfl, sceneNormals_length _⟩
      · exact ⟨_, hv 2, 4, 2, rfl, rfl, sceneTexcoords_length _⟩
      · refine ⟨_, hv 3, if m.1.vertices.length > 65535 then 4 else 2, 1, ?_, rfl, ?_⟩
        · by_cases hw : m.1.vertices.length > 65535
          · simp [hw]
            rfl
          · simp [hw]
            rfl
        · show (sceneIndices _ _).length = _
          rw [sceneIndices_length]
          simp
  · have hp := put_good h.hung.items h.hung.layers m.1 s.nodes.length
    exact h.hung.leaf rfl (all_put _ _ _) hp.1 hp.2

theorem MeshState.Good.fold {v0 : Nat} {u : ExportUnits} {mat : NamedMesh × Nat → Option Nat} :
    ∀ {l : List (NamedMesh × Nat)} {s : MeshState}, s.Good v0 → (l.foldl (addMesh u mat) s).Good v0
  | [], _, h => h
  | m :: l, _, h => MeshState.Good.fold (l := l) (h.add m)

end

end Vpin
