import Verif.Lemmas.GltfSound
import Verif.Spec.Glb
/-! Helper lemmas: the JSON of the glTF file can be printed and parsed. -/
namespace Vpin
open Gltf (Num File)

/-! ### Valid JSON -/

theorem members_valid {keeps : F32 → Prop} {l : List (Key × Option J)} (hn : (l.map (·.1)).Nodup)
    (h : ∀ m ∈ l, ∀ j, m.2 = some j → j.Valid keeps) : (members l).Valid keeps := by
  refine .obj _ ?_ ?_
  · have hs : ∀ l : List (Key × Option J), ((l.filterMap fun m => m.2.map fun j => (m.1, j)).map (·.1)).Sublist
        (l.map (·.1)) := by
      intro l
      induction l with
      | nil => exact .slnil
      | cons m l ih =>
        obtain ⟨k, o⟩ := m
        cases o with
        | none => exact ih.cons _
        | some j => exact ih.cons_cons _
    exact (hs l).nodup hn
  · intro m hm
    obtain ⟨a, ha, he⟩ := List.mem_filterMap.mp hm
    obtain ⟨j, hj, rfl⟩ := Option.map_eq_some_iff.mp he
    exact h a ha j hj

theorem vCons {keeps : F32 → Prop} {k : Key} {o : Option J} {l : List (Key × Option J)}
    (h : ∀ j, o = some j → j.Valid keeps) (hl : ∀ m ∈ l, ∀ j, m.2 = some j → j.Valid keeps) :
    ∀ m ∈ (k, o) :: l, ∀ j, m.2 = some j → j.Valid keeps := by
  intro m hm
  rcases List.mem_cons.mp hm with rfl | hm
  · exact h
  · exact hl m hm

theorem vNil {keeps : F32 → Prop} : ∀ m ∈ ([] : List (Key × Option J)), ∀ j, m.2 = some j → j.Valid keeps := by simp

theorem vSome {keeps : F32 → Prop} {j : J} (h : j.Valid keeps) : ∀ x, some j = some x → x.Valid keeps := by
  intro x hx
  cases hx
  exact h

theorem vMap {keeps : F32 → Prop} {α : Type} {o : Option α} {f : α → J} (h : ∀ a, o = some a → (f a).Valid keeps) :
    ∀ x, o.map f = some x → x.Valid keeps := by
  intro x hx
  obtain ⟨a, ha, rfl⟩ := Option.map_eq_some_iff.mp hx
  exact h a ha

theorem vNats {keeps : F32 → Prop} {l : List Nat} (h : ∀ n ∈ l, n < 18446744073709551616) : (jNats l).Valid keeps := by
  refine .arr _ ?_
  intro j hj
  obtain ⟨n, hn, rfl⟩ := List.mem_map.mp hj
  exact .nat (h n hn)

/-- the number is finite, or `null` -/
def OkNum (x : Num) : Prop := ∀ y, x = some y → y.isFinite = true

theorem num_ok (x : F32) : OkNum (num x) := by
  intro y hy
  unfold num at hy
  split at hy
  · cases hy; assumption
  · cases hy

def OkNums (l : List Num) : Prop := ∀ x ∈ l, OkNum x

theorem okNil : OkNums [] := by simp [OkNums]

theorem okCons {x : Num} {l : List Num} (h : OkNum x) (hl : OkNums l) : OkNums (x :: l) := by
  intro y hy
  rcases List.mem_cons.mp hy with rfl | hy
  · exact h
  · exact hl y hy

theorem vec3_ok (v : Vec3) : OkNums (vec3Nums v) := okCons (num_ok _) (okCons (num_ok _) (okCons (num_ok _) okNil))

theorem rgba_ok (v : Rgba) : OkNums (rgbaNums v) :=
  okCons (num_ok _) (okCons (num_ok _) (okCons (num_ok _) (okCons (num_ok _) okNil)))

section
variable {keeps : F32 → Prop} (hk : ∀ x : F32, x.isFinite = true → keeps x)
include hk

theorem vNum {x : Num} (h : OkNum x) : (jNum x).Valid keeps := by
  cases x with
  | none => exact .null
  | some y => exact .f32 _ (hk y (h y rfl))

theorem vNums {l : List Num} (h : OkNums l) : (jNums l).Valid keeps := by
  refine .arr _ ?_
  intro j hj
  obtain ⟨n, hn, rfl⟩ := List.mem_map.mp hj
  exact vNum hk (h n hn)

end

theorem vArr {keeps : F32 → Prop} {α : Type} {l : List α} {f : α → J} (h : ∀ a ∈ l, (f a).Valid keeps) :
    (J.arr (l.map f)).Valid keeps := by
  refine .arr _ ?_
  intro j hj
  obtain ⟨n, hn, rfl⟩ := List.mem_map.mp hj
  exact h n hn

theorem vArrSome {keeps : F32 → Prop} {α : Type} {l : List α} {f : α → J} (h : ∀ a ∈ l, (f a).Valid keeps) :
    ∀ x, jSome f l = some x → x.Valid keeps := by
  intro x hx
  unfold jSome at hx
  split at hx
  · cases hx
  · cases hx
    exact vArr h

/-! ### Documents that can be printed -/

structure Gltf.Node.Printable (keeps : F32 → Prop) (n : Gltf.Node) : Prop where
  mesh : ∀ k, n.mesh = some k → k < 18446744073709551616
  light : ∀ k, n.light = some k → k < 18446744073709551616
  camera : ∀ k, n.camera = some k → k < 18446744073709551616
  children : ∀ l, n.children = some l → ∀ k ∈ l, k < 18446744073709551616
  translation : ∀ l, n.translation = some l → OkNums l
  rotation : ∀ l, n.rotation = some l → OkNums l
  scale : ∀ l, n.scale = some l → OkNums l
  extras : ∀ j, n.extras = some j → j.Valid keeps

structure Gltf.Material.Printable (m : Gltf.Material) : Prop where
  color : ∀ l, m.color = some l → OkNums l
  metallic : OkNum m.metallic
  roughness : OkNum m.roughness
  transmission : ∀ x, m.transmission = some x → OkNum x

structure Gltf.File.Printable (keeps : F32 → Prop) (f : File) : Prop where
  lights : ∀ l ∈ f.lights, OkNums l.color ∧ OkNum l.intensity ∧ OkNum l.range
  scene : f.scene < 18446744073709551616
  scenes : ∀ l ∈ f.scenes, ∀ k ∈ l, k < 18446744073709551616
  nodes : ∀ n ∈ f.nodes, n.Printable keeps
  meshes : ∀ m ∈ f.meshes, m.position < 18446744073709551616 ∧ m.normal < 18446744073709551616 ∧
    m.texcoord < 18446744073709551616 ∧ m.indices < 18446744073709551616 ∧ m.mode < 18446744073709551616 ∧
    ∀ k, m.material = some k → k < 18446744073709551616
  cameras : ∀ c ∈ f.cameras, OkNum c.yfov ∧ OkNum c.znear ∧ OkNum c.zfar
  accessors : ∀ a ∈ f.accessors, a.view < 18446744073709551616 ∧ a.component < 18446744073709551616 ∧
    a.count < 18446744073709551616 ∧ (∀ l, a.min = some l → OkNums l) ∧ ∀ l, a.max = some l → OkNums l
  views : ∀ v ∈ f.views, v.offset < 18446744073709551616 ∧ v.length < 18446744073709551616 ∧
    ∀ k, v.target = some k → k < 18446744073709551616
  buffers : ∀ b ∈ f.buffers, b.length < 18446744073709551616
  materials : ∀ m ∈ f.materials, m.Printable ∧ ∀ k, m.texture = some k → k < 18446744073709551616
  textures : ∀ t ∈ f.textures, t.sampler < 18446744073709551616 ∧ t.source < 18446744073709551616
  images : ∀ i ∈ f.images, i.view < 18446744073709551616
  samplers : ∀ s ∈ f.samplers, s = linearSampler

macro "keys" : tactic => `(tactic| (simp only [List.map_cons, List.map_nil]; decide))

theorem File.json_valid {keeps : F32 → Prop} (hk : ∀ x : F32, x.isFinite = true → keeps x) {f : File}
    (h : f.Printable keeps) : f.json.Valid keeps := by
  refine members_valid (by keys) ?_
  refine vCons (vSome (members_valid (by keys) (vCons (vSome (.str _)) (vCons (vSome (.str _)) vNil)))) ?_
  refine vCons (vSome (vArr fun _ _ => .str _)) ?_
  refine vCons (vSome (members_valid (by keys) (vCons (vSome (members_valid (by keys) (vCons (vSome (vArr ?_)) vNil)))
    vNil))) ?_
  · intro l hl
    obtain ⟨h1, h2, h3⟩ := h.lights l hl
    exact members_valid (by keys) (vCons (vSome (.str _)) (vCons (vSome (.str _)) (vCons (vSome (vNums hk h1))
      (vCons (vSome (vNum hk h2)) (vCons (vSome (vNum hk h3)) vNil)))))
  refine vCons (vSome (.nat h.scene)) ?_
  refine vCons (vSome (vArr fun l hl => members_valid (by keys) (vCons (vSome (vNats (h.scenes l hl))) vNil))) ?_
  refine vCons (vSome (vArr ?_)) ?_
  · intro n hn
    obtain ⟨h1, h2, h3, h4, h5, h6, h7, h8⟩ := h.nodes n hn
    refine members_valid (by keys) (vCons (vMap fun k e => .nat (h1 k e)) (vCons (vSome (.str _))
      (vCons (vMap fun k e => .nat (h3 k e)) (vCons (vMap fun l e => vNats (h4 l e))
      (vCons (vMap fun l e => vNums hk (h5 l e)) (vCons (vMap fun l e => vNums hk (h6 l e))
      (vCons (vMap fun l e => vNums hk (h7 l e)) (vCons ?_ (vCons h8 vNil)))))))))
    intro j hj
    unfold nodeExtensions at hj
    split at hj
    · cases hj
      exact members_valid (by keys) (vCons (vMap fun k e => members_valid (by keys)
        (vCons (vSome (.nat (h2 k e))) vNil)) (vCons (vMap fun b _ => members_valid (by keys)
        (vCons (vSome (.bool _)) vNil)) vNil))
    · cases hj
  refine vCons (vSome (vArr ?_)) ?_
  · intro m hm
    obtain ⟨h1, h2, h3, h4, h5, h6⟩ := h.meshes m hm
    exact members_valid (by keys) (vCons (vSome (.str _)) (vCons (vSome (.arr _ (validCons (members_valid (by keys)
      (vCons (vSome (members_valid (by keys) (vCons (vSome (.nat h1)) (vCons (vSome (.nat h2)) (vCons (vSome (.nat h3))
        vNil)))))
      (vCons (vSome (.nat h4)) (vCons (vSome (.nat h5)) (vCons (vMap fun k e => .nat (h6 k e)) vNil))))) validNil)))
      vNil))
  refine vCons (vSome (vArr ?_)) ?_
  · intro c hc
    obtain ⟨h1, h2, h3⟩ := h.cameras c hc
    exact members_valid (by keys) (vCons (vSome (.str _)) (vCons (vSome (.str _)) (vCons (vSome (members_valid (by keys)
      (vCons (vSome (vNum hk h1)) (vCons (vSome (vNum hk h2)) (vCons (vSome (vNum hk h3)) vNil))))) vNil)))
  refine vCons (vSome (vArr ?_)) ?_
  · intro a ha
    obtain ⟨h1, h2, h3, h4, h5⟩ := h.accessors a ha
    exact members_valid (by keys) (vCons (vSome (.nat h1)) (vCons (vSome (.nat h2)) (vCons (vSome (.nat h3))
      (vCons (vSome (.str _)) (vCons (vMap fun l e => vNums hk (h4 l e)) (vCons (vMap fun l e => vNums hk (h5 l e))
      vNil))))))
  refine vCons (vSome (vArr ?_)) ?_
  · intro v hv
    obtain ⟨h1, h2, h3⟩ := h.views v hv
    exact members_valid (by keys) (vCons (vSome (.num _ (by decide))) (vCons (vSome (.nat h1)) (vCons (vSome (.nat h2))
      (vCons (vMap fun k e => .nat (h3 k e)) vNil))))
  refine vCons (vSome (vArr ?_)) ?_
  · intro b hb
    exact members_valid (by keys) (vCons (vSome (.nat (h.buffers b hb))) (vCons (vMap fun _ _ => .str _) vNil))
  refine vCons (vArrSome ?_) (vCons (vArrSome ?_) (vCons (vArrSome ?_) (vCons (vArrSome ?_) vNil)))
  · intro m hm
    obtain ⟨⟨h1, h2, h3, h4⟩, h5⟩ := h.materials m hm
    exact members_valid (by keys) (vCons (vSome (.str _)) (vCons (vSome (members_valid (by keys)
      (vCons (vMap fun l e => vNums hk (h1 l e)) (vCons (vMap fun k e => members_valid (by keys)
        (vCons (vSome (.nat (h5 k e))) vNil)) (vCons (vSome (vNum hk h2)) (vCons (vSome (vNum hk h3)) vNil))))))
      (vCons (vMap fun _ _ => .str _) (vCons (vMap fun _ _ => .bool _) (vCons (vMap fun x e => members_valid (by keys)
        (vCons (vSome (members_valid (by keys) (vCons (vSome (vNum hk (h4 x e))) vNil))) vNil)) vNil)))))
  · intro t ht
    obtain ⟨h1, h2⟩ := h.textures t ht
    exact members_valid (by keys) (vCons (vSome (.nat h1)) (vCons (vSome (.nat h2)) (vCons (vSome (.str _)) vNil)))
  · intro i hi
    exact members_valid (by keys) (vCons (vSome (.nat (h.images i hi))) (vCons (vSome (.str _)) (vCons (vSome (.str _))
      vNil)))
  · intro s hs
    rw [h.samplers s hs]
    exact members_valid (by keys) (vCons (vSome (.num _ (by decide))) (vCons (vSome (.num _ (by decide)))
      (vCons (vSome (.num _ (by decide))) (vCons (vSome (.num _ (by decide))) vNil))))

/-! ### The exporter's document can be printed -/

/-- views of images have no target, and there is only the one kind of sampler -/
structure PlainTextures (s : TextureState) : Prop where
  views : ∀ v ∈ s.views, v.target = none
  samplers : ∀ x ∈ s.samplers, x = linearSampler

theorem PlainTextures.push {U : Unicode} {s : TextureState} (h : PlainTextures s) (k : Nat) (i : ImageData) (bytes : Bytes) :
    PlainTextures (s.push U k i bytes) where
  views := by
    intro v hv
    rcases List.mem_append.mp hv with hv | hv
    · exact h.views v hv
    · rw [List.mem_singleton.mp hv]
  samplers := h.samplers

theorem PlainTextures.add {E : GltfEnv} {images : List ImageData} {s s' : TextureState × List (Str × Nat)} {name : Str}
    (h : PlainTextures s.1) (hs : addTexture E images s name = .ok s') : PlainTextures s'.1 := by
  unfold addTexture at hs
  dsimp only at hs
  split at hs
  · cases hs; exact h
  · split at hs
    · cases hs; exact h
    · obtain ⟨b, hb, hs⟩ := Res.unbind hs
      cases b with
      | none => cases hs; exact h
      | some b =>
        cases hs
        dsimp only
        refine PlainTextures.push ?_ _ _ _
        split
        · exact ⟨h.views, fun x hx => List.mem_singleton.mp hx⟩
        · exact h

theorem PlainTextures.fold {E : GltfEnv} {images : List ImageData} : ∀ {names : List Str}
    {s s' : TextureState × List (Str × Nat)}, PlainTextures s.1 → names.foldlM (addTexture E images) s = .ok s' →
    PlainTextures s'.1
  | [], s, s', h, hs => by cases hs; exact h
  | n :: names, s, s', h, hs => by
    rw [List.foldlM_cons] at hs
    obtain ⟨t, ht, hs⟩ := Res.unbind hs
    exact PlainTextures.fold (h.add ht) hs

section
variable [Arith]

omit [Arith] in
theorem blendIf_ok {b : Bool} {m : Gltf.Material} (h : m.Printable) : (blendIf b m).Printable := by
  unfold blendIf
  split
  · exact ⟨h.color, h.metallic, h.roughness, h.transmission⟩
  · exact h

omit [Arith] in
theorem printable_of {x : Gltf.Material} {a b : F32} (hm : x.metallic = num a) (hr : x.roughness = num b)
    (hc : x.color = none ∨ ∃ c, x.color = some (rgbaNums c))
    (ht : x.transmission = none ∨ ∃ t, x.transmission = some (num t)) : x.Printable := by
  refine ⟨?_, hm ▸ num_ok a, hr ▸ num_ok b, ?_⟩
  · intro l hl
    rcases hc with hc | ⟨c, hc⟩
    · rw [hc] at hl
      cases hl
    · rw [hc] at hl
      cases hl
      exact rgba_ok c
  · intro l hl
    rcases ht with ht | ⟨t, ht⟩
    · rw [ht] at hl
      cases hl
    · rw [ht] at hl
      cases hl
      exact num_ok t

theorem startTextures_plain {E : GltfEnv} {g : GameData} {images : List ImageData}
    {materials : List (Str × GltfMaterial)} {r : TextureState × List (Str × Nat) × List Gltf.Material}
    (h : startTextures E g images materials = .ok r) : PlainTextures r.1 ∧ ∀ m ∈ r.2.2, m.Printable := by
  unfold startTextures at h
  cases hi : findImage images g.image with
  | none =>
    rw [hi] at h
    cases h
    exact ⟨⟨fun _ h => (by cases h), fun _ h => (by cases h)⟩, by simp⟩
  | some i =>
    rw [hi] at h
    obtain ⟨b, hb, h⟩ := Res.unbind h
    obtain ⟨bytes, hu, h⟩ := Res.unbind h
    cases h
    refine ⟨PlainTextures.push ⟨fun _ h => (by cases h), fun x hx => List.mem_singleton.mp hx⟩ _ _ _, ?_⟩
    intro m hm
    rw [List.mem_singleton.mp hm]
    exact printable_of (a := 0) (b := playfieldRoughness g.playfield_reflection_strength
      (((mapGet materials g.playfieldMaterial).map (·.roughness)).getD fHalf)) rfl rfl (.inl rfl) (.inl rfl)

theorem addMaterial_ok {s : List (Str × Nat) × List Gltf.Material} (h : ∀ m ∈ s.2, m.Printable) (m : Str × GltfMaterial) :
    ∀ x ∈ (addMaterial s m).2, x.Printable := by
  unfold addMaterial
  split
  · exact h
  · intro x hx
    rcases List.mem_append.mp hx with hx | hx
    · exact h x hx
    · rw [List.mem_singleton.mp hx]
      exact blendIf_ok (printable_of rfl rfl (.inr ⟨_, rfl⟩) (.inl rfl))

theorem addMaterial_fold_ok : ∀ (l : List (Str × GltfMaterial)) {s : List (Str × Nat) × List Gltf.Material},
    (∀ m ∈ s.2, m.Printable) → ∀ x ∈ (l.foldl addMaterial s).2, x.Printable
  | [], _, h => h
  | m :: l, _, h => addMaterial_fold_ok l (addMaterial_ok h m)

theorem meshMaterial_ok {E : GltfEnv} {g : GameData} {images : List ImageData}
    {materials : List (Str × GltfMaterial)} {textures : List (Str × Nat)} {m : NamedMesh} {k : Option Str}
    {x : Gltf.Material} (h : meshMaterial E g images materials textures m = some (k, x)) : x.Printable := by
  unfold meshMaterial at h
  dsimp only at h
  repeat' split at h
  all_goals first
    | cases h
      done
    | (simp only [Option.some.injEq, Prod.mk.injEq] at h
       obtain ⟨rfl, rfl⟩ := h
       first
        | exact printable_of (a := f32One) (b := 0x3e19999a) rfl rfl (.inr ⟨_, rfl⟩) (.inl rfl)
        | exact blendIf_ok (printable_of rfl rfl (.inr ⟨_, rfl⟩) (.inl rfl))
        | exact blendIf_ok (printable_of rfl rfl (.inr ⟨_, rfl⟩) (.inr ⟨_, rfl⟩))
        | exact blendIf_ok (printable_of rfl rfl (.inl rfl) (.inl rfl)))

theorem meshMaterials_ok {E : GltfEnv} {g : GameData} {images : List ImageData} {materials : List (Str × GltfMaterial)}
    {textures : List (Str × Nat)} : ∀ (l : List (NamedMesh × Nat)) {s : MaterialState}, (∀ m ∈ s.materials, m.Printable) →
    ∀ m ∈ (l.foldl (addMeshMaterial E g images materials textures) s).materials, m.Printable
  | [], _, h => h
  | a :: l, s, h => by
    refine meshMaterials_ok l ?_
    have hsnoc : ∀ k x, meshMaterial E g images materials textures a.1 = some (k, x) →
        ∀ m ∈ s.materials ++ [x], m.Printable := by
      intro k x hx m hm
      rcases List.mem_append.mp hm with hm | hm
      · exact h m hm
      · rw [List.mem_singleton.mp hm]
        exact meshMaterial_ok hx
    unfold addMeshMaterial
    cases hx : meshMaterial E g images materials textures a.1 with
    | none => exact h
    | some kx =>
      obtain ⟨k, x⟩ := kx
      cases k with
      | none => exact hsnoc _ _ hx
      | some k =>
        dsimp only
        split
        · exact h
        · exact hsnoc _ _ hx

theorem addMesh_fold_ok {u : ExportUnits} {mat : NamedMesh × Nat → Option Nat} : ∀ (l : List (NamedMesh × Nat))
    {s : MeshState}, (∀ v ∈ s.views, ∀ k, v.target = some k → k < 18446744073709551616) →
    (∀ a ∈ s.accessors, (∀ l, a.min = some l → OkNums l) ∧ ∀ l, a.max = some l → OkNums l) →
    (∀ v ∈ (l.foldl (addMesh u mat) s).views, ∀ k, v.target = some k → k < 18446744073709551616) ∧
    ∀ a ∈ (l.foldl (addMesh u mat) s).accessors, (∀ l, a.min = some l → OkNums l) ∧ ∀ l, a.max = some l → OkNums l
  | [], _, hv, ha => ⟨hv, ha⟩
  | m :: l, s, hv, ha => by
    refine addMesh_fold_ok l ?_ ?_
    · intro v hm
      rcases List.mem_append.mp hm with hm | hm
      · exact hv v hm
      · simp only [List.mem_cons, List.not_mem_nil, or_false] at hm
        rcases hm with rfl | rfl | rfl | rfl
        all_goals (intro k hk; cases hk; decide)
    · intro a hm
      rcases List.mem_append.mp hm with hm | hm
      · exact ha a hm
      · simp only [List.mem_cons, List.not_mem_nil, or_false] at hm
        rcases hm with rfl | rfl | rfl | rfl
        · exact ⟨vMap' _, vMap' _⟩
        all_goals exact ⟨fun l h => (by cases h), fun l h => (by cases h)⟩
where
  vMap' (v : Vec3) : ∀ l, some (vec3Nums v) = some l → OkNums l := by
    intro l hl
    cases hl
    exact vec3_ok v

theorem giLight_ok {fuel : Nat} {u : ExportUnits} {vpx : VPX} {l : Light × Nat} {r : Gltf.Light × Gltf.Node}
    (h : giLight fuel u vpx l = .ok r) : (OkNums r.1.color ∧ OkNum r.1.intensity ∧ OkNum r.1.range) ∧
    (∀ l, r.2.translation = some l → OkNums l) ∧ r.2.rotation = none ∧ r.2.scale = none := by
  unfold giLight at h
  obtain ⟨z, _, h⟩ := Res.unbind h
  cases h
  refine ⟨⟨okCons (num_ok _) (okCons (num_ok _) (okCons (num_ok _) okNil)), num_ok _, num_ok _⟩, ?_, rfl, rfl⟩
  intro l hl
  cases hl
  exact vec3_ok _

/-- the parts of the nodes that are numbers -/
structure Gltf.Node.Moved (n : Gltf.Node) : Prop where
  translation : ∀ l, n.translation = some l → OkNums l
  rotation : ∀ l, n.rotation = some l → OkNums l
  scale : ∀ l, n.scale = some l → OkNums l

omit [Arith] in
theorem moved_none {n : Gltf.Node} (ht : n.translation = none ∨ ∃ v, n.translation = some (vec3Nums v))
    (hr : n.rotation = none) (hs : n.scale = none ∨ ∃ v, n.scale = some (vec3Nums v)) : n.Moved := by
  refine ⟨?_, ?_, ?_⟩
  · intro l hl
    rcases ht with h | ⟨v, h⟩
    · rw [h] at hl; cases hl
    · rw [h] at hl; cases hl; exact vec3_ok v
  · intro l hl
    rw [hr] at hl; cases hl
  · intro l hl
    rcases hs with h | ⟨v, h⟩
    · rw [h] at hl; cases hl
    · rw [h] at hl; cases hl; exact vec3_ok v

/-- what the collector gives for the extra data of groups -/
theorem collectMeshes_extras {E : GltfEnv} {fuel : Nat} {o : GltfOptions} {vpx : VPX} {meshes : List NamedMesh}
    {groups : List ItemGroup} (h : collectMeshes E fuel o vpx = .ok (meshes, groups)) :
    ∀ g ∈ groups, ∃ it ∈ vpx.gameitems, g.extras = E.extras it := by
  obtain ⟨parts, hp, rfl, hm⟩ := collectMeshes_parts h
  obtain ⟨h1, h2⟩ := mapM_part hp
  intro g hg
  obtain ⟨c, hc, hgc⟩ := List.mem_flatMap.mp hg
  obtain ⟨it, hmem, hit⟩ := h1 c hc
  rcases collectItem_owned hit with ⟨he, _⟩ | ⟨a, _, hgr, hgm⟩
  · rw [he] at hgc
    cases hgc
  · rw [hgr] at hgc
    rw [List.mem_singleton.mp hgc]
    exact ⟨it, hmem, rfl⟩

theorem scene_printable {keeps : F32 → Prop} {E : GltfEnv} {fuel : Nat} {u : ExportUnits} {vpx : VPX}
    {meshes : List NamedMesh} {groups : List ItemGroup} {materials : List (Str × GltfMaterial)} {f : File} {bin : Bytes}
    (h : buildScene E fuel u vpx meshes groups materials = .ok (f, bin))
    (hg : ∀ g ∈ groups, g.extras.Valid keeps) (ht : (E.tableExtras vpx.gamedata).Valid keeps) {root : Nat}
    (htree : f.Tree root) (hs : f.Small) (hb : bin.length < 18446744073709551616) : f.Printable keeps := by
  have hsound := scene_sound h
  obtain ⟨_, start, textured, gi, h1, h2, h3, hr⟩ := buildScene_ok h
  obtain ⟨hp0, hm0⟩ := startTextures_plain h1
  have hplain := PlainTextures.fold hp0 h2
  have hmesh := addMesh_fold_ok (u := u) (mat := materialOf E.U (sceneMaterials E vpx meshes materials start textured)
    (sceneNames E materials start).1) meshes.zipIdx (s := ⟨textured.1.bin, textured.1.views, [], [], [], ⟨[], [], []⟩⟩)
    (by intro v hv k hk; rw [hplain.views v hv] at hk; cases hk) (by simp)
  have hgi : ∀ r ∈ gi, ∃ l, giLight fuel u vpx l = .ok r := by
    intro r hr
    obtain ⟨l, _, h⟩ := (mapM_part h3).1 r hr
    exact ⟨l, h⟩
  have hnodes : (sceneMeshes E u vpx meshes materials start textured).nodes =
      meshes.zipIdx.map fun m => meshNode m.1 m.2 := by
    have := mesh_nodes (u := u) (mat := materialOf E.U (sceneMaterials E vpx meshes materials start textured)
      (sceneNames E materials start).1) meshes.zipIdx ⟨textured.1.bin, textured.1.views, [], [], [], ⟨[], [], []⟩⟩
    exact this.trans (by simp)
  have hmoved : ∀ n ∈ (sceneFile E u vpx meshes groups materials start textured gi).1.nodes,
      n.Moved ∧ ∀ j, n.extras = some j → j.Valid keeps := by
    intro n hn
    rcases List.mem_append.mp hn with hn | hn
    · refine arrange_all (P := fun n => n.Moved ∧ ∀ j, n.extras = some j → j.Valid keeps) ?_ ?_ ?_ ?_ ?_ ?_ ?_ n hn
      · intro n hn
        rw [hnodes] at hn
        obtain ⟨m, _, rfl⟩ := List.mem_map.mp hn
        refine ⟨moved_none ?_ rfl ?_, fun j hj => (by cases hj)⟩
        · dsimp only [meshNode]
          cases m.1.translation with
          | none => exact .inl rfl
          | some v => exact .inr ⟨v, rfl⟩
        · dsimp only [meshNode]
          cases m.1.scale with
          | none => exact .inl rfl
          | some v => exact .inr ⟨v, rfl⟩
      · exact fun _ _ _ _ => ⟨moved_none (.inr ⟨_, rfl⟩) rfl (.inl rfl), fun j hj => (by cases hj)⟩
      · intro l hl
        obtain ⟨r, hr, he⟩ := List.mem_map.mp (List.of_mem_zip hl).2
        rw [← he]
        obtain ⟨x, hx⟩ := hgi r hr
        obtain ⟨_, g1, g2, g3⟩ := giLight_ok hx
        refine ⟨⟨g1, ?_, ?_⟩, ?_⟩
        · intro l hl; rw [g2] at hl; cases hl
        · intro l hl; rw [g3] at hl; cases hl
        · intro j hj
          rw [(giLight_node hx).2.2.2.2.1] at hj
          cases hj
      · intro g hgm n hn
        refine ⟨⟨hn.1.translation, hn.1.rotation, hn.1.scale⟩, ?_⟩
        intro j hj
        cases hj
        exact hg g hgm
      · intro g hgm cs
        refine ⟨moved_none (.inl rfl) rfl (.inl rfl), ?_⟩
        intro j hj
        cases hj
        exact hg g hgm
      · exact fun _ _ => ⟨moved_none (.inl rfl) rfl (.inl rfl), fun j hj => (by cases hj)⟩
      · intro c i _
        refine ⟨⟨?_, ?_, ?_⟩, fun j hj => (by cases hj)⟩
        · intro l hl; cases hl; exact vec3_ok _
        · intro l hl; cases hl
          exact okCons (num_ok _) (okCons (num_ok _) (okCons (num_ok _) (okCons (num_ok _) okNil)))
        · intro l hl; cases hl
    · rw [List.mem_singleton.mp hn]
      refine ⟨moved_none (.inl rfl) rfl (.inl rfl), ?_⟩
      intro j hj
      cases hj
      exact ht
  obtain rfl : f = (sceneFile E u vpx meshes groups materials start textured gi).1 := congrArg Prod.fst hr
  have hlights : ∀ l ∈ (sceneFile E u vpx meshes groups materials start textured gi).1.lights,
      OkNums l.color ∧ OkNum l.intensity ∧ OkNum l.range := by
    intro l hl
    rcases List.mem_append.mp hl with hl | hl
    · simp only [List.mem_cons, List.not_mem_nil, or_false] at hl
      rcases hl with rfl | rfl
      all_goals exact ⟨okCons (num_ok _) (okCons (num_ok _) (okCons (num_ok _) okNil)), num_ok _, num_ok _⟩
    · obtain ⟨r, hr, rfl⟩ := List.mem_map.mp hl
      obtain ⟨x, hx⟩ := hgi r hr
      exact (giLight_ok hx).1
  have hcams : ∀ c ∈ (sceneFile E u vpx meshes groups materials start textured gi).1.cameras,
      OkNum c.yfov ∧ OkNum c.znear ∧ OkNum c.zfar := by
    intro c hc
    obtain ⟨x, _, rfl⟩ := List.mem_map.mp hc
    exact ⟨num_ok _, num_ok _, num_ok _⟩
  have hmats : ∀ m ∈ (sceneFile E u vpx meshes groups materials start textured gi).1.materials, m.Printable :=
    meshMaterials_ok _ (addMaterial_fold_ok _ hm0)
  have hsc : ∀ l ∈ (sceneFile E u vpx meshes groups materials start textured gi).1.scenes, ∀ k ∈ l,
      k < (sceneFile E u vpx meshes groups materials start textured gi).1.nodes.length := by
    intro l hl k hk
    have hl : l ∈ [[_]] := hl
    rw [List.mem_singleton.mp hl] at hk
    rw [List.mem_singleton.mp hk]
    show _ < (_ ++ [_]).length
    simp
  have hacc : ∀ a ∈ (sceneFile E u vpx meshes groups materials start textured gi).1.accessors,
      (∀ l, a.min = some l → OkNums l) ∧ ∀ l, a.max = some l → OkNums l := hmesh.2
  have hview : ∀ v ∈ (sceneFile E u vpx meshes groups materials start textured gi).1.views,
      ∀ k, v.target = some k → k < 18446744073709551616 := hmesh.1
  have hsam : ∀ x ∈ (sceneFile E u vpx meshes groups materials start textured gi).1.samplers, x = linearSampler :=
    hplain.samplers
  have hscene : (sceneFile E u vpx meshes groups materials start textured gi).1.scene = 0 := rfl
  generalize (sceneFile E u vpx meshes groups materials start textured gi).1 = f at *
  have small : ∀ n, n ∈ [f.lights.length, f.nodes.length, f.meshes.length, f.cameras.length, f.accessors.length,
    f.views.length, f.materials.length, f.textures.length, f.images.length, f.samplers.length] →
    n < 18446744073709551616 := hs
  have get : ∀ {α : Type} {l : List α} {i : Nat} {x : α}, l[i]? = some x → i < l.length := by
    intro α l i x h
    exact (List.getElem?_eq_some_iff.mp h).1
  have hbelow : ∀ n ∈ f.nodes, ∀ l, n.children = some l → ∀ k ∈ l, k < f.nodes.length := by
    intro n hn l hl k hk
    obtain ⟨i, hi, rfl⟩ := List.mem_iff_getElem.mp hn
    have : k ∈ root :: (List.range f.nodes.length).flatMap f.childrenOf := by
      refine List.mem_cons_of_mem _ (List.mem_flatMap.mpr ⟨i, List.mem_range.mpr hi, ?_⟩)
      unfold Gltf.File.childrenOf
      rw [List.getElem?_eq_getElem hi]
      simp [hl, hk]
    exact List.mem_range.mp (htree.once.mem_iff.mp this)
  refine ⟨hlights, by rw [hscene]; decide, fun l hl k hk => Nat.lt_trans (hsc l hl k hk) (small _ (by simp)), ?_, ?_, hcams,
    ?_, ?_, ?_, ?_, ?_, ?_, hsam⟩
  · intro n hn
    obtain ⟨⟨g1, g2, g3⟩, g4⟩ := hmoved n hn
    exact ⟨fun k hk => Nat.lt_trans (hsound.node_mesh n hn k hk) (small _ (by simp)),
      fun k hk => Nat.lt_trans (hsound.node_light n hn k hk) (small _ (by simp)),
      fun k hk => Nat.lt_trans (hsound.node_camera n hn k hk) (small _ (by simp)),
      fun l hl k hk => Nat.lt_trans (hbelow n hn l hl k hk) (small _ (by simp)), g1, g2, g3, g4⟩
  · intro m hm
    have hm := hsound.meshes m hm
    have ha : ∀ {i : Nat}, i < f.accessors.length → i < 18446744073709551616 :=
      fun h => Nat.lt_trans h (small _ (by simp))
    obtain ⟨p, g1, _⟩ := hm.position
    obtain ⟨_, n, _, g2, _⟩ := hm.normal
    obtain ⟨_, t, _, g3, _⟩ := hm.texcoord
    obtain ⟨i, g4, _⟩ := hm.indices
    refine ⟨ha (get g1), ha (get g2), ha (get g3), ha (get g4), by rw [hm.triangles]; decide, ?_⟩
    exact fun k hk => Nat.lt_trans (hm.material k hk) (small _ (by simp))
  · intro a ha
    obtain ⟨v, hv, b, c, e1, e2, e3⟩ := hsound.accessors a ha
    have hin := hsound.views v (List.mem_of_getElem? hv)
    have hc : 0 < c := by
      unfold Gltf.components at e2
      repeat' split at e2
      all_goals first | (cases e2; decide) | cases e2
    have hb' : 0 < b ∧ a.component < 18446744073709551616 := by
      unfold Gltf.componentBytes at e1
      split at e1
      all_goals first
        | (rename_i hcomp; cases e1; rw [hcomp]; decide)
        | cases e1
    have hcount : a.count ≤ v.length := by
      rw [e3]
      exact Nat.le_mul_of_pos_right _ (Nat.mul_pos hb'.1 hc)
    refine ⟨Nat.lt_trans (get hv) (small _ (by simp)), hb'.2, by omega, hacc a ha⟩
  · intro v hv
    have hin := hsound.views v hv
    exact ⟨by omega, by omega, hview v hv⟩
  · intro b hbm
    obtain ⟨uri, he⟩ := hsound.buffer
    rw [he] at hbm
    rw [List.mem_singleton.mp hbm]
    exact hb
  · intro m hm
    exact ⟨hmats m hm, fun k hk => Nat.lt_trans (hsound.materials m hm k hk) (small _ (by simp))⟩
  · intro t ht
    obtain ⟨g1, g2⟩ := hsound.textures t ht
    exact ⟨Nat.lt_trans g1 (small _ (by simp)), Nat.lt_trans g2 (small _ (by simp))⟩
  · intro i hi
    have : i.view ∈ f.images.map (·.view) ++ f.accessors.map (·.view) :=
      List.mem_append_left _ (List.mem_map_of_mem hi)
    exact Nat.lt_trans (List.mem_range.mp (hsound.views_used.mem_iff.mp this)) (small _ (by simp))

end
end Vpin
