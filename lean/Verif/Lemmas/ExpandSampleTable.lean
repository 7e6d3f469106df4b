import Verif.Lemmas.ExpandSampleItems
/-
The table of the example can be expanded.
-/
namespace Vpin

/-- the numbers of the game data are not in what comes from other files -/
theorem GameData.JsonOk.withParts {keeps : F32 → Prop} {g : GameData} (h : g.JsonOk keeps) (a : List SaveMaterial)
    (b : Option (List SavePhysicsMaterial)) (c : UInt32) (d : Option (List Material)) (e : StringWithEncoding)
    (n1 n2 n3 n4 n5 : UInt32) :
    ({ g with
      materials_old := a
      materials_physics_old := b
      materials_size := c
      materials := d
      code := e
      gameitems_size := n1
      images_size := n2
      sounds_size := n3
      fonts_size := n4
      collections_size := n5 } : GameData).JsonOk keeps :=
  ⟨h.left, h.top, h.right, h.bottom, h.bg_rotation_desktop, h.bg_inclination_desktop, h.bg_layback_desktop, h.bg_fov_desktop, h.bg_offset_x_desktop, h.bg_offset_y_desktop, h.bg_offset_z_desktop, h.bg_scale_x_desktop, h.bg_scale_y_desktop, h.bg_scale_z_desktop, h.bg_view_horizontal_offset_desktop, h.bg_view_vertical_offset_desktop, h.bg_window_top_x_offset_desktop, h.bg_window_top_y_offset_desktop, h.bg_window_top_z_offset_desktop, h.bg_window_bottom_x_offset_desktop, h.bg_window_bottom_y_offset_desktop, h.bg_window_bottom_z_offset_desktop, h.bg_rotation_fullscreen, h.bg_inclination_fullscreen, h.bg_layback_fullscreen, h.bg_fov_fullscreen, h.bg_offset_x_fullscreen, h.bg_offset_y_fullscreen, h.bg_offset_z_fullscreen, h.bg_scale_x_fullscreen, h.bg_scale_y_fullscreen, h.bg_scale_z_fullscreen, h.bg_view_horizontal_offset_fullscreen, h.bg_view_vertical_offset_fullscreen, h.bg_window_top_x_offset_fullscreen, h.bg_window_top_y_offset_fullscreen, h.bg_window_top_z_offset_fullscreen, h.bg_window_bottom_x_offset_fullscreen, h.bg_window_bottom_y_offset_fullscreen, h.bg_window_bottom_z_offset_fullscreen, h.bg_rotation_full_single_screen, h.bg_inclination_full_single_screen, h.bg_layback_full_single_screen, h.bg_fov_full_single_screen, h.bg_offset_x_full_single_screen, h.bg_offset_y_full_single_screen, h.bg_offset_z_full_single_screen, h.bg_scale_x_full_single_screen, h.bg_scale_y_full_single_screen, h.bg_scale_z_full_single_screen, h.bg_view_horizontal_offset_full_single_screen, h.bg_view_vertical_offset_full_single_screen, h.bg_window_top_x_offset_full_single_screen, h.bg_window_top_y_offset_full_single_screen, h.bg_window_top_z_offset_full_single_screen, h.bg_window_bottom_x_offset_full_single_screen, h.bg_window_bottom_y_offset_full_single_screen, h.bg_window_bottom_z_offset_full_single_screen, h.gravity, h.friction, h.elasticity, h.elastic_falloff, h.scatter, h.default_scatter, h.nudge_time, h.offset_x, h.offset_y, h.zoom, h.angle_tilt_max, h.angle_tilt_min, h.stereo_max_separation, h.stereo_zero_parallax_displacement, h.stereo_offset, h.glass_top_height, h.glass_bottom_height, h.table_height, h.global_difficulty, h.light_height, h.light_range, h.light_emission_scale, h.env_emission_scale, h.global_emission_scale, h.ao_scale, h.ssr_scale, h.ground_to_lockbar_height, h.table_sound_volume, h.table_music_volume, h.playfield_reflection_strength, h.ball_playfield_reflection_strength, h.default_bulb_intensity_scale_on_ball, h.tone_mapper, h.bloom_strength, h.custom_colors, h.exposure⟩

theorem expandItems_ok : ∀ g ∈ expandItems, g.Expandable sampleExpand .Obj := by
  intro g hg
  simp only [expandItems, List.mem_cons, List.not_mem_nil, or_false] at hg
  rcases hg with rfl | rfl | rfl | rfl | rfl
  · exact ⟨(samplePrimitive_json.setFrames _ _).rename _, fun p e => by cases e; exact expandPrimitive_ok⟩
  · exact ⟨Wall.sample_json, fun p e => absurd e (not_primitive rfl p)⟩
  · exact ⟨samplePrimitive_json.rename _, fun p e => by cases e; exact samplePrimitive_ok (by decide) (by decide)⟩
  · exact ⟨Primitive.default_json.rename _, fun p e => by cases e; exact defaultPrimitive_ok (by decide) (by decide)⟩
  · exact ⟨Wall.sample_json, fun p e => absurd e (not_primitive rfl p)⟩

instance (x : F32) : Decidable (sampleExpand.J.keeps x) := .isTrue trivial

instance (x : F32) : Decidable (PlainF32 sampleExpand.J.keeps x) := inferInstanceAs (Decidable (_ ∧ _))

theorem expandImages_ok : ∀ s ∈ expandImages, s.Expandable sampleExpand := by
  intro s hs
  simp only [expandImages, List.mem_cons, List.not_mem_nil, or_false] at hs
  rcases hs with rfl | rfl | rfl | rfl
  · exact ⟨by constructor <;> decide +kernel, .inr (.inl ⟨by decide, _, rfl, rfl, by decide⟩)⟩
  · exact ⟨by constructor <;> decide +kernel, .inr (.inl ⟨by decide, _, rfl, rfl, by decide⟩)⟩
  · exact ⟨by constructor <;> decide +kernel, .inr (.inr ⟨by decide, rfl, by decide, _, [1, 2, 3, 254], rfl, by decide +kernel, rfl, trivial⟩)⟩
  · exact ⟨by constructor <;> decide +kernel, .inl ⟨by decide, rfl, rfl⟩⟩

theorem expandTable_ok : expandTable.Expandable sampleExpand .Obj where
  properties := by decide +kernel
  items := expandItems_ok
  images := expandImages_ok
  sounds := by
    intro s hs
    simp only [expandTable, List.mem_cons, List.not_mem_nil, or_false] at hs
    unfold SoundData.Expandable
    rcases hs with rfl | rfl | rfl
    · rw [if_pos (by decide +kernel)]
      exact ⟨by decide, by decide, by decide⟩
    · rw [if_neg (by decide +kernel)]
      rfl
    · rw [if_pos (by decide +kernel)]
      exact ⟨by decide, by decide, by decide⟩
  gamedata := {
    json := GameData.sample_json.withParts _ _ _ _ _ _ _ _ _ _
    code := ⟨[0x4f, 0xe9, 0x0a], rfl⟩
    modern := by
      intro ms e
      cases e
      refine ⟨?_, by decide +kernel, rfl, rfl⟩
      intro m hm
      simp only [expandMaterials, List.mem_cons, List.not_mem_nil, or_false] at hm
      rcases hm with rfl | rfl <;> (constructor <;> decide)
    old := fun e => by cases e
    probes := by
      intro ps e
      cases e
      intro p hp
      have : p = ⟨RenderProbe.sample, [1, 2]⟩ := by simpa using hp
      subst this
      exact ⟨by decide, by decide, by decide, by decide⟩ }
  imageNames := by decide +kernel
  soundNames := by decide +kernel
  fontNames := by decide +kernel
  fontsDiffer := by decide +kernel
  counts := ⟨rfl, rfl, rfl, rfl, rfl⟩

end Vpin
