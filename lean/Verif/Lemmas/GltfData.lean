import Verif.Lemmas.GltfSound
/-! Helper lemmas: what the accessors of the meshes hold. -/
namespace Vpin

/-! ### Floats and indices of records -/

/-- part `j` of record `k` of `n` parts of size `w` -/
theorem record_part {α : Type} (g : α → Bytes) (n w : Nat) (h : ∀ a, (g a).length = w * n) (l : List α) (k : Nat)
    (hk : k < l.length) (j : Nat) (hj : j < n) :
    ((l.flatMap g).drop (w * (n * k + j))).take w = ((g l[k]).drop (w * j)).take w := by
  have hs := flatMap_slice g (w * n) h l [] k hk
  rw [List.append_nil] at hs
  rw [← hs, List.drop_take, List.take_take, List.drop_drop]
  have h1 : w ≤ w * n - w * j := by
    have : w * (j + 1) ≤ w * n := Nat.mul_le_mul_left _ hj
    rw [Nat.mul_succ] at this
    omega
  rw [Nat.min_eq_left h1]
  congr 2
  rw [Nat.mul_add, Nat.mul_comm k, Nat.mul_assoc]

theorem floatAt_record {α : Type} (g : α → Bytes) (n : Nat) (h : ∀ a, (g a).length = 4 * n) (l : List α) (k : Nat)
    (hk : k < l.length) (j : Nat) (hj : j < n) : Gltf.floatAt (l.flatMap g) (n * k + j) = f32At (g l[k]) j := by
  unfold Gltf.floatAt f32At
  rw [record_part g n 4 h l k hk j hj]

theorem range_map_get {α β : Type} (l : List α) (f : α → β) (F : Nat → β) (h : ∀ k (hk : k < l.length), F k = f l[k]) :
    (List.range l.length).map F = l.map f := by
  apply List.ext_getElem
  · simp
  · intro k h1 h2
    simp only [List.getElem_map, List.getElem_range]
    exact h k (by simpa using h2)

theorem leNat_index2 {i : Int} (h0 : 0 ≤ i) (h : i < 65536) : leNat (writeIndex 2 i) = i.toNat := by
  unfold writeIndex
  rw [if_pos rfl, leNat_le16, UInt16.toNat_ofNat']
  omega

theorem leNat_index4 {i : Int} (h0 : 0 ≤ i) (h : i < 4294967296) : leNat (writeIndex 4 i) = i.toNat := by
  unfold writeIndex
  rw [if_neg (by decide), leNat_le32, UInt32.toNat_ofNat']
  omega

theorem take_slice (a b c : Bytes) (w : Nat) (ha : a.length = w) (hb : b.length = w) (hc : c.length = w) :
    ((a ++ b ++ c).drop (w * 0)).take w = a ∧ ((a ++ b ++ c).drop (w * 1)).take w = b ∧
    ((a ++ b ++ c).drop (w * 2)).take w = c := by
  refine ⟨?_, ?_, ?_⟩
  · rw [Nat.mul_zero, List.drop_zero, List.append_assoc, List.take_left' ha]
  · rw [Nat.mul_one, List.append_assoc, List.drop_left' ha, List.take_left' hb]
  · rw [List.drop_left' (by rw [List.length_append, ha, hb]; omega)]
    rw [List.take_of_length_le (by omega)]

theorem indexAt_record {wide : Bool} (fs : List Face) (k : Nat) (hk : k < fs.length)
    (hb : fs[k].Below (if wide then 4294967296 else 65536)) :
    let c := if wide then 5125 else 5123
    Gltf.indexAt c (sceneIndices wide fs) (3 * k) = fs[k].i0.toNat ∧
    Gltf.indexAt c (sceneIndices wide fs) (3 * k + 1) = fs[k].i2.toNat ∧
    Gltf.indexAt c (sceneIndices wide fs) (3 * k + 2) = fs[k].i1.toNat := by
  obtain ⟨a1, a2, b1, b2, c1, c2⟩ := hb
  cases wide with
  | true =>
    have hr := record_part (fun f : Face => writeIndex 4 f.i0 ++ writeIndex 4 f.i2 ++ writeIndex 4 f.i1) 3 4
      (fun _ => rfl) fs k hk
    obtain ⟨t0, t1, t2⟩ := take_slice (writeIndex 4 fs[k].i0) (writeIndex 4 fs[k].i2) (writeIndex 4 fs[k].i1) 4 rfl rfl rfl
    have e : sceneIndices true fs = fs.flatMap fun f => writeIndex 4 f.i0 ++ writeIndex 4 f.i2 ++ writeIndex 4 f.i1 := rfl
    dsimp only at a2 b2 c2 hr ⊢
    simp only [if_true] at a2 b2 c2
    unfold Gltf.indexAt
    rw [e, if_pos rfl, if_pos rfl, if_pos rfl, if_pos rfl]
    refine ⟨?_, ?_, ?_⟩
    · rw [show 3 * k = 3 * k + 0 from rfl, hr 0 (by omega), t0, leNat_index4 a1 (by omega)]
    · rw [hr 1 (by omega), t1, leNat_index4 c1 (by omega)]
    · rw [hr 2 (by omega), t2, leNat_index4 b1 (by omega)]
  | false =>
    have hr := record_part (fun f : Face => writeIndex 2 f.i0 ++ writeIndex 2 f.i2 ++ writeIndex 2 f.i1) 3 2
      (fun _ => rfl) fs k hk
    obtain ⟨t0, t1, t2⟩ := take_slice (writeIndex 2 fs[k].i0) (writeIndex 2 fs[k].i2) (writeIndex 2 fs[k].i1) 2 rfl rfl rfl
    have e : sceneIndices false fs = fs.flatMap fun f => writeIndex 2 f.i0 ++ writeIndex 2 f.i2 ++ writeIndex 2 f.i1 := rfl
    dsimp only at a2 b2 c2 hr ⊢
    simp only [Bool.false_eq_true, if_false] at a2 b2 c2 ⊢
    unfold Gltf.indexAt
    rw [e, if_neg (by decide), if_neg (by decide), if_neg (by decide)]
    refine ⟨?_, ?_, ?_⟩
    · rw [show 3 * k = 3 * k + 0 from rfl, hr 0 (by omega), t0, leNat_index2 a1 (by omega)]
    · rw [hr 1 (by omega), t1, leNat_index2 c1 (by omega)]
    · rw [hr 2 (by omega), t2, leNat_index2 b1 (by omega)]

section
variable [Arith]

/-- the four views of mesh `k` and their data -/
theorem scene_mesh_data {E : GltfEnv} {u : ExportUnits} {vpx : VPX} {meshes : List NamedMesh} {groups : List ItemGroup}
    {materials : List (Str × GltfMaterial)} {start : TextureState × List (Str × Nat) × List Gltf.Material}
    {textured : TextureState × List (Str × Nat)} {gi : List (Gltf.Light × Gltf.Node)} {k : Nat} {m : NamedMesh}
    (hk : meshes[k]? = some m) :
    let r := sceneFile E u vpx meshes groups materials start textured gi
    r.1.data r.2 (4 * k) = some (⟨textured.1.views.length + 4 * k, 5126, m.vertices.length, "VEC3".toList,
      some (vec3Nums (sceneBounds u m.vertices).1), some (vec3Nums (sceneBounds u m.vertices).2)⟩,
      scenePositions u m.vertices) ∧
    r.1.data r.2 (4 * k + 1) = some (⟨textured.1.views.length + 4 * k + 1, 5126, m.vertices.length, "VEC3".toList,
      none, none⟩, sceneNormals m.vertices) ∧
    r.1.data r.2 (4 * k + 2) = some (⟨textured.1.views.length + 4 * k + 2, 5126, m.vertices.length, "VEC2".toList,
      none, none⟩, sceneTexcoords m.vertices) ∧
    r.1.data r.2 (4 * k + 3) = some (⟨textured.1.views.length + 4 * k + 3,
      if decide (m.vertices.length > 65535) then 5125 else 5123, m.faces.length * 3, "SCALAR".toList,
      none, none⟩, sceneIndices (m.vertices.length > 65535) m.faces) := by
  obtain ⟨t, hg, _, hv, ha, hm, hn⟩ := scene_mesh_at (E := E) (u := u) (vpx := vpx) (materials := materials)
    (start := start) (textured := textured) hk
  generalize hmat : materialOf E.U (sceneMaterials E vpx meshes materials start textured)
    (sceneNames E materials start).1 = mat at hg
  have hacc : ∀ (j : Nat) (x : Gltf.Accessor), (addMesh u mat t (m, k)).accessors[t.accessors.length + j]? = some x →
      (sceneMeshes E u vpx meshes materials start textured).accessors[4 * k + j]? = some x := by
    intro j x hx
    rw [ha] at hx
    exact prefix_getElem hg.accessors hx
  have hvw : ∀ (j : Nat) (x : Gltf.View), (addMesh u mat t (m, k)).views[t.views.length + j]? = some x →
      (sceneMeshes E u vpx meshes materials start textured).views[textured.1.views.length + 4 * k + j]? = some x := by
    intro j x hx
    rw [hv] at hx
    exact prefix_getElem hg.views hx
  have hnew : ∀ {α : Type} (a l : List α) (j : Nat), (a ++ l)[a.length + j]? = l[j]? := by
    intro α a l j
    rw [List.getElem?_append_right (Nat.le_add_right _ _), Nat.add_sub_cancel_left]
  have hbin : (addMesh u mat t (m, k)).bin <+: (sceneFile E u vpx meshes groups materials start textured gi).2 :=
    hg.bin.trans (pad4_prefix _)
  have hdata : ∀ (j : Nat) (a : Gltf.Accessor) (v : Gltf.View) (bs : Bytes),
      (addMesh u mat t (m, k)).accessors[t.accessors.length + j]? = some a → a.view = t.views.length + j →
      (addMesh u mat t (m, k)).views[t.views.length + j]? = some v →
      v.offset + v.length ≤ (addMesh u mat t (m, k)).bin.length →
      v.bytes (addMesh u mat t (m, k)).bin = bs →
      (sceneFile E u vpx meshes groups materials start textured gi).1.data
        (sceneFile E u vpx meshes groups materials start textured gi).2 (4 * k + j) = some (a, bs) := by
    intro j a v bs h1 h2 h3 h4 h5
    have h1 : (sceneFile E u vpx meshes groups materials start textured gi).1.accessors[4 * k + j]? = some a := hacc j a h1
    have h3 : (sceneFile E u vpx meshes groups materials start textured gi).1.views[
      textured.1.views.length + 4 * k + j]? = some v := hvw j v h3
    unfold Gltf.File.data
    rw [h1]
    show (do let v ← (sceneFile E u vpx meshes groups materials start textured gi).1.views[a.view]?; pure (a, v.bytes _))
      = _
    rw [h2, hv, h3]
    show some (a, v.bytes _) = _
    rw [viewBytes_grow h4 hbin, h5]
  have hb : (addMesh u mat t (m, k)).bin = t.bin ++ scenePositions u m.vertices ++ sceneNormals m.vertices ++
    sceneTexcoords m.vertices ++ sceneIndices (m.vertices.length > 65535) m.faces := rfl
  rw [← hv]
  refine ⟨hdata 0 _ _ _ (hnew _ _ 0) rfl (hnew _ _ 0) ?_ ?_, hdata 1 _ _ _ (hnew _ _ 1) rfl (hnew _ _ 1) ?_ ?_,
    hdata 2 _ _ _ (hnew _ _ 2) rfl (hnew _ _ 2) ?_ ?_, ?_⟩
  · rw [hb]; simp only [List.length_append]; omega
  · rw [hb, List.append_assoc, List.append_assoc]
    exact viewBytes_new _ _ _ _ _ _ rfl rfl
  · rw [hb]; simp only [List.length_append]; omega
  · rw [hb, List.append_assoc]
    exact viewBytes_new _ _ _ _ _ _ (by simp) rfl
  · rw [hb]; simp only [List.length_append]; omega
  · rw [hb]
    exact viewBytes_new _ _ _ _ _ _ (by simp [Nat.add_assoc]) rfl
  · have h3 := hdata 3 _ _ (sceneIndices (m.vertices.length > 65535) m.faces) (hnew _ _ 3) rfl (hnew _ _ 3)
      (by rw [hb]; simp only [List.length_append]; omega)
      (by
        rw [hb, ← List.append_nil (_ ++ sceneIndices _ _)]
        exact viewBytes_new _ _ _ _ _ _ (by simp [Nat.add_assoc]) rfl)
    rw [h3]
    simp only [decide_eq_true_eq]

end
end Vpin
