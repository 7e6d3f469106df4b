import Verif.Lemmas.GameItem
/-!
Primitives whose animation frame records do not come in pairs: writing keeps the pairs, and after
that nothing changes any more.
-/
namespace Vpin

/-- the pairs of frame records that are written -/
def animPairs : Option (List UInt32) → Option (List Bytes) → List (UInt32 × Bytes)
  | some a, some b => a.zip b
  | _, _ => []

/-- the primitive with only the pairs -/
def Primitive.norm (s : Primitive) : Primitive :=
  let ps := animPairs s.compressed_animation_vertices_len s.compressed_animation_vertices_data
  { s with
    compressed_animation_vertices_len := if ps = [] then none else some (ps.map (·.1))
    compressed_animation_vertices_data := if ps = [] then none else some (ps.map (·.2)) }

theorem animOps_norm (a : Option (List UInt32)) (b : Option (List Bytes)) :
    animOps (if animPairs a b = [] then none else some ((animPairs a b).map (·.1)))
      (if animPairs a b = [] then none else some ((animPairs a b).map (·.2))) = animOps a b := by
  have h : animOps a b
      = (animPairs a b).flatMap fun p => [wU32 tag!"M3AY" p.1, wData tag!"M3AX" p.2] := by
    cases a <;> cases b <;> rfl
  rw [h]
  by_cases hp : animPairs a b = []
  · rw [hp]; rfl
  · rw [if_neg hp, if_neg hp]
    show (((animPairs a b).map (·.1)).zip ((animPairs a b).map (·.2))).flatMap _ = _
    congr 1
    generalize animPairs a b = l
    induction l with
    | nil => rfl
    | cons x l ih => simp [ih]

theorem Primitive.norm_ops (s : Primitive) : s.norm.ops = s.ops := by
  have := animOps_norm s.compressed_animation_vertices_len s.compressed_animation_vertices_data
  simp only [Primitive.ops, Primitive.norm]
  rw [this]

theorem Primitive.norm_wf {s : Primitive} (h : s.RInv) : s.norm.WF := by
  have ha : AnimFrames s.norm.compressed_animation_vertices_len
      s.norm.compressed_animation_vertices_data := by
    simp only [Primitive.norm]
    by_cases hp : animPairs s.compressed_animation_vertices_len
        s.compressed_animation_vertices_data = []
    · rw [if_pos hp, if_pos hp]; exact .inl ⟨rfl, rfl⟩
    · rw [if_neg hp, if_neg hp]
      refine .inr ⟨_, _, rfl, rfl, by simp, by simpa using hp, ?_⟩
      intro d hd
      obtain ⟨p, hp1, rfl⟩ := List.mem_map.1 hd
      have h2 := h.animation_data
      revert hp1 h2
      cases s.compressed_animation_vertices_len with
      | none => intro hp1; cases hp1
      | some a =>
        cases s.compressed_animation_vertices_data with
        | none => intro hp1; cases hp1
        | some b => intro hp1 h2; exact (h2 b rfl).2 _ (List.of_mem_zip hp1).2
  exact ⟨h.image, h.normal_map, h.name, h.material, h.disable_lighting_top_old, h.physics_material, h.mesh_file_name, h.compressed_vertices_data, h.compressed_indices_data, ha, h.light_map, h.reflection_probe, h.refraction_probe, h.shared⟩

theorem animPairs_eq {a : Option (List UInt32)} {b : Option (List Bytes)} (h : AnimFrames a b) :
    (if animPairs a b = [] then none else some ((animPairs a b).map (·.1))) = a ∧
    (if animPairs a b = [] then none else some ((animPairs a b).map (·.2))) = b := by
  rcases h with ⟨rfl, rfl⟩ | ⟨ls, ds, rfl, rfl, hl, hne, -⟩
  · exact ⟨rfl, rfl⟩
  · have hp : animPairs (some ls) (some ds) ≠ [] := by
      cases ls with
      | nil => exact absurd rfl hne
      | cons => cases ds with
        | nil => simp at hl
        | cons => simp [animPairs]
    rw [if_neg hp, if_neg hp]
    simp only [animPairs]
    rw [List.map_fst_zip (by omega), List.map_snd_zip (by omega)]
    exact ⟨rfl, rfl⟩

theorem Primitive.norm_eq {s : Primitive} (h : AnimFrames s.compressed_animation_vertices_len
    s.compressed_animation_vertices_data) : s.norm = s := by
  simp only [Primitive.norm]
  rw [(animPairs_eq h).1, (animPairs_eq h).2]

end Vpin
