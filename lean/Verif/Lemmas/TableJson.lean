import Verif.Model.TableJson
import Verif.Spec.TableJson
import Verif.Lemmas.JsonCodec
import Verif.Lemmas.JsonEnums
/-! Helper lemmas: reading game data and materials back from their JSON form. Generated by tools/gen_tablejson.py. -/
namespace Vpin

theorem jArray_ok {keeps : F32 → Prop} {α : Type} {c : Codec α} {P : α → Prop} {n : Nat} (hc : CodecOK keeps c P) :
    CodecOK keeps (jArray n c) (fun l => l.length = n ∧ ∀ a ∈ l, P a) where
  back l h := by
    show (if (l.map c.toJ).length = n then (l.map c.toJ).mapM c.ofJ else _) = _
    rw [List.length_map, if_pos h.1]
    exact mapM_back hc l h.2
  valid l h := (jVec_ok hc).valid l h.2
  notNull l h e := by cases e

def SavePhysicsMaterial.jsonPuts (s : SavePhysicsMaterial) : List (SavePhysicsMaterial → SavePhysicsMaterial) :=
  [fun b => { b with name := s.name },
   fun b => { b with elasticity := s.elasticity },
   fun b => { b with elasticity_falloff := s.elasticity_falloff },
   fun b => { b with friction := s.friction },
   fun b => { b with scatter_angle := s.scatter_angle }]

theorem SavePhysicsMaterial.json_fields {keeps : F32 → Prop} {s : SavePhysicsMaterial} (h : s.JsonOk keeps) :
    FieldsOK keeps s SavePhysicsMaterial.jsonFields s.jsonPuts :=
  (.cons (req_ok jStr_ok trivial)
    (.cons (req_ok jNanInf_ok h.elasticity)
    (.cons (req_ok jNanInf_ok h.elasticity_falloff)
    (.cons (req_ok jNanInf_ok h.friction)
    (.cons (req_ok jNanInf_ok h.scatter_angle)
    .nil)))))

theorem SavePhysicsMaterial.json_names : NamesOK SavePhysicsMaterial.jsonFields := by decide +kernel

theorem SavePhysicsMaterial.json_puts (s : SavePhysicsMaterial) : s.jsonPuts.foldl (fun b p => p b) SavePhysicsMaterial.jsonBase = s := rfl

theorem jSavePhysicsMaterial_ok {keeps : F32 → Prop} : CodecOK keeps jSavePhysicsMaterial (SavePhysicsMaterial.JsonOk keeps) :=
  jStruct_ok SavePhysicsMaterial.json_names (fun _ h => SavePhysicsMaterial.json_fields h) SavePhysicsMaterial.json_puts

def SaveMaterial.jsonPuts (s : SaveMaterial) : List (SaveMaterial → SaveMaterial) :=
  [fun b => { b with name := s.name },
   fun b => { b with base_color := s.base_color },
   fun b => { b with glossy_color := s.glossy_color },
   fun b => { b with clearcoat_color := s.clearcoat_color },
   fun b => { b with wrap_lighting := s.wrap_lighting },
   fun b => { b with is_metal := s.is_metal },
   fun b => { b with roughness := s.roughness },
   fun b => { b with glossy_image_lerp := s.glossy_image_lerp },
   fun b => { b with edge := s.edge },
   fun b => { b with thickness := s.thickness },
   fun b => { b with opacity := s.opacity },
   fun b => { b with opacity_active_edge_alpha := s.opacity_active_edge_alpha }]

theorem SaveMaterial.json_fields {keeps : F32 → Prop} {s : SaveMaterial} (h : s.JsonOk keeps) :
    FieldsOK keeps s SaveMaterial.jsonFields s.jsonPuts :=
  (.cons (req_ok jStr_ok trivial)
    (.cons (req_ok jColor_ok trivial)
    (.cons (req_ok jColor_ok trivial)
    (.cons (req_ok jColor_ok trivial)
    (.cons (req_ok jF32_ok h.wrap_lighting)
    (.cons (req_ok jBool_ok trivial)
    (.cons (req_ok jF32_ok h.roughness)
    (.cons (req_ok jU8_ok trivial)
    (.cons (req_ok jF32_ok h.edge)
    (.cons (req_ok jU8_ok trivial)
    (.cons (req_ok jF32_ok h.opacity)
    (.cons (req_ok jU8_ok trivial)
    .nil))))))))))))

theorem SaveMaterial.json_names : NamesOK SaveMaterial.jsonFields := by decide +kernel

theorem SaveMaterial.json_puts (s : SaveMaterial) : s.jsonPuts.foldl (fun b p => p b) SaveMaterial.jsonBase = s := rfl

theorem jSaveMaterial_ok {keeps : F32 → Prop} : CodecOK keeps jSaveMaterial (SaveMaterial.JsonOk keeps) :=
  jStruct_ok SaveMaterial.json_names (fun _ h => SaveMaterial.json_fields h) SaveMaterial.json_puts

def Material.jsonPuts (s : Material) : List (Material → Material) :=
  [fun b => { b with name := s.name },
   fun b => { b with type_ := s.type_ },
   fun b => { b with wrap_lighting := s.wrap_lighting },
   fun b => { b with roughness := s.roughness },
   fun b => { b with glossy_image_lerp := s.glossy_image_lerp },
   fun b => { b with thickness := s.thickness },
   fun b => { b with edge := s.edge },
   fun b => { b with edge_alpha := s.edge_alpha },
   fun b => { b with opacity := s.opacity },
   fun b => { b with base_color := s.base_color },
   fun b => { b with glossy_color := s.glossy_color },
   fun b => { b with clearcoat_color := s.clearcoat_color },
   fun b => { b with opacity_active := s.opacity_active },
   fun b => { b with elasticity := s.elasticity },
   fun b => { b with elasticity_falloff := s.elasticity_falloff },
   fun b => { b with friction := s.friction },
   fun b => { b with scatter_angle := s.scatter_angle },
   fun b => { b with refraction_tint := s.refraction_tint }]

theorem Material.json_fields {keeps : F32 → Prop} {s : Material} (h : s.JsonOk keeps) :
    FieldsOK keeps s Material.jsonFields s.jsonPuts :=
  (.cons (req_ok jStr_ok trivial)
    (.cons (req_ok MaterialType.codec_ok trivial)
    (.cons (req_ok jF32_ok h.wrap_lighting)
    (.cons (req_ok jF32_ok h.roughness)
    (.cons (req_ok jF32_ok h.glossy_image_lerp)
    (.cons (req_ok jF32_ok h.thickness)
    (.cons (req_ok jF32_ok h.edge)
    (.cons (req_ok jF32_ok h.edge_alpha)
    (.cons (req_ok jF32_ok h.opacity)
    (.cons (req_ok jColor_ok trivial)
    (.cons (req_ok jColor_ok trivial)
    (.cons (req_ok jColor_ok trivial)
    (.cons (req_ok jBool_ok trivial)
    (.cons (req_ok jNanInf_ok h.elasticity)
    (.cons (req_ok jNanInf_ok h.elasticity_falloff)
    (.cons (req_ok jNanInf_ok h.friction)
    (.cons (req_ok jNanInf_ok h.scatter_angle)
    (.cons (req_ok jColor_ok trivial)
    .nil))))))))))))))))))

theorem Material.json_names : NamesOK Material.jsonFields := by decide +kernel

theorem Material.json_puts (s : Material) : s.jsonPuts.foldl (fun b p => p b) Material.jsonBase = s := rfl

theorem jMaterial_ok {keeps : F32 → Prop} : CodecOK keeps jMaterial (Material.JsonOk keeps) :=
  jStruct_ok Material.json_names (fun _ h => Material.json_fields h) Material.json_puts

def GameData.jsonPuts0 (s : GameData) : List (GameData → GameData) :=
  [fun b => { b with left := s.left },
   fun b => { b with top := s.top },
   fun b => { b with right := s.right },
   fun b => { b with bottom := s.bottom },
   fun b => { b with camera_layout_mode := s.camera_layout_mode },
   fun b => { b with bg_view_mode_desktop := s.bg_view_mode_desktop },
   fun b => { b with bg_rotation_desktop := s.bg_rotation_desktop },
   fun b => { b with bg_inclination_desktop := s.bg_inclination_desktop },
   fun b => { b with bg_layback_desktop := s.bg_layback_desktop },
   fun b => { b with bg_fov_desktop := s.bg_fov_desktop },
   fun b => { b with bg_offset_x_desktop := s.bg_offset_x_desktop },
   fun b => { b with bg_offset_y_desktop := s.bg_offset_y_desktop },
   fun b => { b with bg_offset_z_desktop := s.bg_offset_z_desktop },
   fun b => { b with bg_scale_x_desktop := s.bg_scale_x_desktop },
   fun b => { b with bg_scale_y_desktop := s.bg_scale_y_desktop },
   fun b => { b with bg_scale_z_desktop := s.bg_scale_z_desktop },
   fun b => { b with bg_enable_fss := s.bg_enable_fss },
   fun b => { b with bg_view_horizontal_offset_desktop := s.bg_view_horizontal_offset_desktop },
   fun b => { b with bg_view_vertical_offset_desktop := s.bg_view_vertical_offset_desktop },
   fun b => { b with bg_window_top_x_offset_desktop := s.bg_window_top_x_offset_desktop },
   fun b => { b with bg_window_top_y_offset_desktop := s.bg_window_top_y_offset_desktop },
   fun b => { b with bg_window_top_z_offset_desktop := s.bg_window_top_z_offset_desktop },
   fun b => { b with bg_window_bottom_x_offset_desktop := s.bg_window_bottom_x_offset_desktop },
   fun b => { b with bg_window_bottom_y_offset_desktop := s.bg_window_bottom_y_offset_desktop }]

def GameData.jsonPuts1 (s : GameData) : List (GameData → GameData) :=
  [fun b => { b with bg_window_bottom_z_offset_desktop := s.bg_window_bottom_z_offset_desktop },
   fun b => { b with bg_view_mode_fullscreen := s.bg_view_mode_fullscreen },
   fun b => { b with bg_rotation_fullscreen := s.bg_rotation_fullscreen },
   fun b => { b with bg_inclination_fullscreen := s.bg_inclination_fullscreen },
   fun b => { b with bg_layback_fullscreen := s.bg_layback_fullscreen },
   fun b => { b with bg_fov_fullscreen := s.bg_fov_fullscreen },
   fun b => { b with bg_offset_x_fullscreen := s.bg_offset_x_fullscreen },
   fun b => { b with bg_offset_y_fullscreen := s.bg_offset_y_fullscreen },
   fun b => { b with bg_offset_z_fullscreen := s.bg_offset_z_fullscreen },
   fun b => { b with bg_scale_x_fullscreen := s.bg_scale_x_fullscreen },
   fun b => { b with bg_scale_y_fullscreen := s.bg_scale_y_fullscreen },
   fun b => { b with bg_scale_z_fullscreen := s.bg_scale_z_fullscreen },
   fun b => { b with bg_view_horizontal_offset_fullscreen := s.bg_view_horizontal_offset_fullscreen },
   fun b => { b with bg_view_vertical_offset_fullscreen := s.bg_view_vertical_offset_fullscreen },
   fun b => { b with bg_window_top_x_offset_fullscreen := s.bg_window_top_x_offset_fullscreen },
   fun b => { b with bg_window_top_y_offset_fullscreen := s.bg_window_top_y_offset_fullscreen },
   fun b => { b with bg_window_top_z_offset_fullscreen := s.bg_window_top_z_offset_fullscreen },
   fun b => { b with bg_window_bottom_x_offset_fullscreen := s.bg_window_bottom_x_offset_fullscreen },
   fun b => { b with bg_window_bottom_y_offset_fullscreen := s.bg_window_bottom_y_offset_fullscreen },
   fun b => { b with bg_window_bottom_z_offset_fullscreen := s.bg_window_bottom_z_offset_fullscreen },
   fun b => { b with bg_view_mode_full_single_screen := s.bg_view_mode_full_single_screen },
   fun b => { b with bg_rotation_full_single_screen := s.bg_rotation_full_single_screen },
   fun b => { b with bg_inclination_full_single_screen := s.bg_inclination_full_single_screen },
   fun b => { b with bg_layback_full_single_screen := s.bg_layback_full_single_screen }]

def GameData.jsonPuts2 (s : GameData) : List (GameData → GameData) :=
  [fun b => { b with bg_fov_full_single_screen := s.bg_fov_full_single_screen },
   fun b => { b with bg_offset_x_full_single_screen := s.bg_offset_x_full_single_screen },
   fun b => { b with bg_offset_y_full_single_screen := s.bg_offset_y_full_single_screen },
   fun b => { b with bg_offset_z_full_single_screen := s.bg_offset_z_full_single_screen },
   fun b => { b with bg_scale_x_full_single_screen := s.bg_scale_x_full_single_screen },
   fun b => { b with bg_scale_y_full_single_screen := s.bg_scale_y_full_single_screen },
   fun b => { b with bg_scale_z_full_single_screen := s.bg_scale_z_full_single_screen },
   fun b => { b with bg_view_horizontal_offset_full_single_screen := s.bg_view_horizontal_offset_full_single_screen },
   fun b => { b with bg_view_vertical_offset_full_single_screen := s.bg_view_vertical_offset_full_single_screen },
   fun b => { b with bg_window_top_x_offset_full_single_screen := s.bg_window_top_x_offset_full_single_screen },
   fun b => { b with bg_window_top_y_offset_full_single_screen := s.bg_window_top_y_offset_full_single_screen },
   fun b => { b with bg_window_top_z_offset_full_single_screen := s.bg_window_top_z_offset_full_single_screen },
   fun b => { b with bg_window_bottom_x_offset_full_single_screen := s.bg_window_bottom_x_offset_full_single_screen },
   fun b => { b with bg_window_bottom_y_offset_full_single_screen := s.bg_window_bottom_y_offset_full_single_screen },
   fun b => { b with bg_window_bottom_z_offset_full_single_screen := s.bg_window_bottom_z_offset_full_single_screen },
   fun b => { b with override_physics := s.override_physics },
   fun b => { b with override_physics_flipper := s.override_physics_flipper },
   fun b => { b with gravity := s.gravity },
   fun b => { b with friction := s.friction },
   fun b => { b with elasticity := s.elasticity },
   fun b => { b with elastic_falloff := s.elastic_falloff },
   fun b => { b with scatter := s.scatter },
   fun b => { b with default_scatter := s.default_scatter },
   fun b => { b with nudge_time := s.nudge_time }]

def GameData.jsonPuts3 (s : GameData) : List (GameData → GameData) :=
  [fun b => { b with plunger_normalize := s.plunger_normalize },
   fun b => { b with plunger_filter := s.plunger_filter },
   fun b => { b with physics_max_loops := s.physics_max_loops },
   fun b => { b with render_em_reels := s.render_em_reels },
   fun b => { b with render_decals := s.render_decals },
   fun b => { b with offset_x := s.offset_x },
   fun b => { b with offset_y := s.offset_y },
   fun b => { b with zoom := s.zoom },
   fun b => { b with angle_tilt_max := s.angle_tilt_max },
   fun b => { b with angle_tilt_min := s.angle_tilt_min },
   fun b => { b with stereo_max_separation := s.stereo_max_separation },
   fun b => { b with stereo_zero_parallax_displacement := s.stereo_zero_parallax_displacement },
   fun b => { b with stereo_offset := s.stereo_offset },
   fun b => { b with overwrite_global_stereo3d := s.overwrite_global_stereo3d },
   fun b => { b with image := s.image },
   fun b => { b with backglass_image_full_desktop := s.backglass_image_full_desktop },
   fun b => { b with backglass_image_full_fullscreen := s.backglass_image_full_fullscreen },
   fun b => { b with backglass_image_full_single_screen := s.backglass_image_full_single_screen },
   fun b => { b with image_backdrop_night_day := s.image_backdrop_night_day },
   fun b => { b with image_color_grade := s.image_color_grade },
   fun b => { b with ball_image := s.ball_image },
   fun b => { b with ball_spherical_mapping := s.ball_spherical_mapping },
   fun b => { b with ball_image_front := s.ball_image_front },
   fun b => { b with env_image := s.env_image }]

def GameData.jsonPuts4 (s : GameData) : List (GameData → GameData) :=
  [fun b => { b with notes := s.notes },
   fun b => { b with screen_shot := s.screen_shot },
   fun b => { b with display_backdrop := s.display_backdrop },
   fun b => { b with glass_top_height := s.glass_top_height },
   fun b => { b with glass_bottom_height := s.glass_bottom_height },
   fun b => { b with table_height := s.table_height },
   fun b => { b with playfield_material := s.playfield_material },
   fun b => { b with backdrop_color := s.backdrop_color },
   fun b => { b with global_difficulty := s.global_difficulty },
   fun b => { b with light_ambient := s.light_ambient },
   fun b => { b with light0_emission := s.light0_emission },
   fun b => { b with light_height := s.light_height },
   fun b => { b with light_range := s.light_range },
   fun b => { b with light_emission_scale := s.light_emission_scale },
   fun b => { b with env_emission_scale := s.env_emission_scale },
   fun b => { b with global_emission_scale := s.global_emission_scale },
   fun b => { b with ao_scale := s.ao_scale },
   fun b => { b with ssr_scale := s.ssr_scale },
   fun b => { b with ground_to_lockbar_height := s.ground_to_lockbar_height },
   fun b => { b with table_sound_volume := s.table_sound_volume },
   fun b => { b with table_music_volume := s.table_music_volume },
   fun b => { b with table_adaptive_vsync := s.table_adaptive_vsync },
   fun b => { b with use_reflection_for_balls := s.use_reflection_for_balls },
   fun b => { b with brst := s.brst }]

def GameData.jsonPuts5 (s : GameData) : List (GameData → GameData) :=
  [fun b => { b with playfield_reflection_strength := s.playfield_reflection_strength },
   fun b => { b with use_trail_for_balls := s.use_trail_for_balls },
   fun b => { b with ball_decal_mode := s.ball_decal_mode },
   fun b => { b with ball_playfield_reflection_strength := s.ball_playfield_reflection_strength },
   fun b => { b with default_bulb_intensity_scale_on_ball := s.default_bulb_intensity_scale_on_ball },
   fun b => { b with ball_trail_strength := s.ball_trail_strength },
   fun b => { b with user_detail_level := s.user_detail_level },
   fun b => { b with overwrite_global_detail_level := s.overwrite_global_detail_level },
   fun b => { b with overwrite_global_day_night := s.overwrite_global_day_night },
   fun b => { b with show_grid := s.show_grid },
   fun b => { b with reflect_elements_on_playfield := s.reflect_elements_on_playfield },
   fun b => { b with use_aal := s.use_aal },
   fun b => { b with use_fxaa := s.use_fxaa },
   fun b => { b with use_ao := s.use_ao },
   fun b => { b with use_ssr := s.use_ssr },
   fun b => { b with tone_mapper := s.tone_mapper },
   fun b => { b with bloom_strength := s.bloom_strength },
   fun b => { b with name := s.name },
   fun b => { b with custom_colors := s.custom_colors },
   fun b => { b with protection_data := s.protection_data },
   fun b => { b with locked := s.locked },
   fun b => { b with exposure := s.exposure },
   fun b => { b with is_10_8_0_beta1_to_beta4 := (if s.is_10_8_0_beta1_to_beta4 then some true else none).getD false }]

def GameData.jsonPuts (s : GameData) : List (GameData → GameData) := (s.jsonPuts0 ++ (s.jsonPuts1 ++ (s.jsonPuts2 ++ (s.jsonPuts3 ++ (s.jsonPuts4 ++ s.jsonPuts5)))))

theorem GameData.json_fields0 {keeps : F32 → Prop} {s : GameData} (h : s.JsonOk keeps) :
    FieldsOK keeps s GameData.jsonFields0 s.jsonPuts0 :=
  (.cons (req_ok jF32_ok h.left)
    (.cons (req_ok jF32_ok h.top)
    (.cons (req_ok jF32_ok h.right)
    (.cons (req_ok jF32_ok h.bottom)
    (.cons (optSkip_ok jU32_ok (fun _ _ => trivial))
    (.cons (opt_ok ViewLayoutMode.codec_ok (fun _ _ => trivial))
    (.cons (req_ok jF32_ok h.bg_rotation_desktop)
    (.cons (req_ok jF32_ok h.bg_inclination_desktop)
    (.cons (req_ok jF32_ok h.bg_layback_desktop)
    (.cons (req_ok jF32_ok h.bg_fov_desktop)
    (.cons (req_ok jF32_ok h.bg_offset_x_desktop)
    (.cons (req_ok jF32_ok h.bg_offset_y_desktop)
    (.cons (req_ok jF32_ok h.bg_offset_z_desktop)
    (.cons (req_ok jF32_ok h.bg_scale_x_desktop)
    (.cons (req_ok jF32_ok h.bg_scale_y_desktop)
    (.cons (req_ok jF32_ok h.bg_scale_z_desktop)
    (.cons (opt_ok jBool_ok (fun _ _ => trivial))
    (.cons (opt_ok jF32_ok h.bg_view_horizontal_offset_desktop)
    (.cons (opt_ok jF32_ok h.bg_view_vertical_offset_desktop)
    (.cons (opt_ok jF32_ok h.bg_window_top_x_offset_desktop)
    (.cons (opt_ok jF32_ok h.bg_window_top_y_offset_desktop)
    (.cons (opt_ok jF32_ok h.bg_window_top_z_offset_desktop)
    (.cons (opt_ok jF32_ok h.bg_window_bottom_x_offset_desktop)
    (.cons (opt_ok jF32_ok h.bg_window_bottom_y_offset_desktop)
    .nil))))))))))))))))))))))))

theorem GameData.json_fields1 {keeps : F32 → Prop} {s : GameData} (h : s.JsonOk keeps) :
    FieldsOK keeps s GameData.jsonFields1 s.jsonPuts1 :=
  (.cons (opt_ok jF32_ok h.bg_window_bottom_z_offset_desktop)
    (.cons (opt_ok ViewLayoutMode.codec_ok (fun _ _ => trivial))
    (.cons (req_ok jF32_ok h.bg_rotation_fullscreen)
    (.cons (req_ok jF32_ok h.bg_inclination_fullscreen)
    (.cons (req_ok jF32_ok h.bg_layback_fullscreen)
    (.cons (req_ok jF32_ok h.bg_fov_fullscreen)
    (.cons (req_ok jF32_ok h.bg_offset_x_fullscreen)
    (.cons (req_ok jF32_ok h.bg_offset_y_fullscreen)
    (.cons (req_ok jF32_ok h.bg_offset_z_fullscreen)
    (.cons (req_ok jF32_ok h.bg_scale_x_fullscreen)
    (.cons (req_ok jF32_ok h.bg_scale_y_fullscreen)
    (.cons (req_ok jF32_ok h.bg_scale_z_fullscreen)
    (.cons (opt_ok jF32_ok h.bg_view_horizontal_offset_fullscreen)
    (.cons (opt_ok jF32_ok h.bg_view_vertical_offset_fullscreen)
    (.cons (opt_ok jF32_ok h.bg_window_top_x_offset_fullscreen)
    (.cons (opt_ok jF32_ok h.bg_window_top_y_offset_fullscreen)
    (.cons (opt_ok jF32_ok h.bg_window_top_z_offset_fullscreen)
    (.cons (opt_ok jF32_ok h.bg_window_bottom_x_offset_fullscreen)
    (.cons (opt_ok jF32_ok h.bg_window_bottom_y_offset_fullscreen)
    (.cons (opt_ok jF32_ok h.bg_window_bottom_z_offset_fullscreen)
    (.cons (opt_ok ViewLayoutMode.codec_ok (fun _ _ => trivial))
    (.cons (opt_ok jF32_ok h.bg_rotation_full_single_screen)
    (.cons (opt_ok jF32_ok h.bg_inclination_full_single_screen)
    (.cons (opt_ok jF32_ok h.bg_layback_full_single_screen)
    .nil))))))))))))))))))))))))

theorem GameData.json_fields2 {keeps : F32 → Prop} {s : GameData} (h : s.JsonOk keeps) :
    FieldsOK keeps s GameData.jsonFields2 s.jsonPuts2 :=
  (.cons (opt_ok jF32_ok h.bg_fov_full_single_screen)
    (.cons (opt_ok jF32_ok h.bg_offset_x_full_single_screen)
    (.cons (opt_ok jNanInf_ok h.bg_offset_y_full_single_screen)
    (.cons (opt_ok jF32_ok h.bg_offset_z_full_single_screen)
    (.cons (opt_ok jF32_ok h.bg_scale_x_full_single_screen)
    (.cons (opt_ok jNanInf_ok h.bg_scale_y_full_single_screen)
    (.cons (opt_ok jF32_ok h.bg_scale_z_full_single_screen)
    (.cons (opt_ok jF32_ok h.bg_view_horizontal_offset_full_single_screen)
    (.cons (opt_ok jF32_ok h.bg_view_vertical_offset_full_single_screen)
    (.cons (opt_ok jF32_ok h.bg_window_top_x_offset_full_single_screen)
    (.cons (opt_ok jF32_ok h.bg_window_top_y_offset_full_single_screen)
    (.cons (opt_ok jF32_ok h.bg_window_top_z_offset_full_single_screen)
    (.cons (opt_ok jF32_ok h.bg_window_bottom_x_offset_full_single_screen)
    (.cons (opt_ok jF32_ok h.bg_window_bottom_y_offset_full_single_screen)
    (.cons (opt_ok jF32_ok h.bg_window_bottom_z_offset_full_single_screen)
    (.cons (req_ok jU32_ok trivial)
    (.cons (opt_ok jBool_ok (fun _ _ => trivial))
    (.cons (req_ok jF32_ok h.gravity)
    (.cons (req_ok jF32_ok h.friction)
    (.cons (req_ok jF32_ok h.elasticity)
    (.cons (req_ok jF32_ok h.elastic_falloff)
    (.cons (req_ok jF32_ok h.scatter)
    (.cons (req_ok jF32_ok h.default_scatter)
    (.cons (req_ok jF32_ok h.nudge_time)
    .nil))))))))))))))))))))))))

theorem GameData.json_fields3 {keeps : F32 → Prop} {s : GameData} (h : s.JsonOk keeps) :
    FieldsOK keeps s GameData.jsonFields3 s.jsonPuts3 :=
  (.cons (opt_ok jU32_ok (fun _ _ => trivial))
    (.cons (opt_ok jBool_ok (fun _ _ => trivial))
    (.cons (req_ok jU32_ok trivial)
    (.cons (req_ok jBool_ok trivial)
    (.cons (req_ok jBool_ok trivial)
    (.cons (req_ok jF32_ok h.offset_x)
    (.cons (req_ok jF32_ok h.offset_y)
    (.cons (req_ok jF32_ok h.zoom)
    (.cons (req_ok jF32_ok h.angle_tilt_max)
    (.cons (req_ok jF32_ok h.angle_tilt_min)
    (.cons (opt_ok jF32_ok h.stereo_max_separation)
    (.cons (opt_ok jF32_ok h.stereo_zero_parallax_displacement)
    (.cons (opt_ok jF32_ok h.stereo_offset)
    (.cons (opt_ok jBool_ok (fun _ _ => trivial))
    (.cons (req_ok jStr_ok trivial)
    (.cons (req_ok jStr_ok trivial)
    (.cons (req_ok jStr_ok trivial)
    (.cons (opt_ok jStr_ok (fun _ _ => trivial))
    (.cons (req_ok jBool_ok trivial)
    (.cons (req_ok jStr_ok trivial)
    (.cons (req_ok jStr_ok trivial)
    (.cons (opt_ok jBool_ok (fun _ _ => trivial))
    (.cons (req_ok jStr_ok trivial)
    (.cons (opt_ok jStr_ok (fun _ _ => trivial))
    .nil))))))))))))))))))))))))

theorem GameData.json_fields4 {keeps : F32 → Prop} {s : GameData} (h : s.JsonOk keeps) :
    FieldsOK keeps s GameData.jsonFields4 s.jsonPuts4 :=
  (.cons (opt_ok jStr_ok (fun _ _ => trivial))
    (.cons (req_ok jStr_ok trivial)
    (.cons (req_ok jBool_ok trivial)
    (.cons (req_ok jF32_ok h.glass_top_height)
    (.cons (opt_ok jF32_ok h.glass_bottom_height)
    (.cons (opt_ok jF32_ok h.table_height)
    (.cons (req_ok jStr_ok trivial)
    (.cons (req_ok jColor_ok trivial)
    (.cons (req_ok jF32_ok h.global_difficulty)
    (.cons (req_ok jColor_ok trivial)
    (.cons (req_ok jColor_ok trivial)
    (.cons (req_ok jF32_ok h.light_height)
    (.cons (req_ok jF32_ok h.light_range)
    (.cons (req_ok jF32_ok h.light_emission_scale)
    (.cons (req_ok jF32_ok h.env_emission_scale)
    (.cons (req_ok jF32_ok h.global_emission_scale)
    (.cons (req_ok jF32_ok h.ao_scale)
    (.cons (opt_ok jF32_ok h.ssr_scale)
    (.cons (opt_ok jF32_ok h.ground_to_lockbar_height)
    (.cons (req_ok jF32_ok h.table_sound_volume)
    (.cons (req_ok jF32_ok h.table_music_volume)
    (.cons (opt_ok jI32_ok (fun _ _ => trivial))
    (.cons (opt_ok jI32_ok (fun _ _ => trivial))
    (.cons (opt_ok jI32_ok (fun _ _ => trivial))
    .nil))))))))))))))))))))))))

theorem GameData.json_fields5 {keeps : F32 → Prop} {s : GameData} (h : s.JsonOk keeps) :
    FieldsOK keeps s GameData.jsonFields5 s.jsonPuts5 :=
  (.cons (req_ok jF32_ok h.playfield_reflection_strength)
    (.cons (opt_ok jI32_ok (fun _ _ => trivial))
    (.cons (req_ok jBool_ok trivial)
    (.cons (opt_ok jF32_ok h.ball_playfield_reflection_strength)
    (.cons (opt_ok jF32_ok h.default_bulb_intensity_scale_on_ball)
    (.cons (opt_ok jU32_ok (fun _ _ => trivial))
    (.cons (opt_ok jU32_ok (fun _ _ => trivial))
    (.cons (opt_ok jBool_ok (fun _ _ => trivial))
    (.cons (opt_ok jBool_ok (fun _ _ => trivial))
    (.cons (req_ok jBool_ok trivial)
    (.cons (opt_ok jBool_ok (fun _ _ => trivial))
    (.cons (opt_ok jI32_ok (fun _ _ => trivial))
    (.cons (opt_ok jI32_ok (fun _ _ => trivial))
    (.cons (opt_ok jI32_ok (fun _ _ => trivial))
    (.cons (opt_ok jI32_ok (fun _ _ => trivial))
    (.cons (opt_ok ToneMapper.codec_ok h.tone_mapper)
    (.cons (req_ok jF32_ok h.bloom_strength)
    (.cons (req_ok jStr_ok trivial)
    (.cons (req_ok (jArray_ok jColor_ok) ⟨h.custom_colors, fun _ _ => trivial⟩)
    (.cons (opt_ok (jVec_ok jU8_ok) (fun _ _ _ _ => trivial))
    (.cons (opt_ok jU32_ok (fun _ _ => trivial))
    (.cons (optSkip_ok jF32_ok h.exposure)
    (.cons (optSkip_ok jBool_ok (fun _ _ => trivial))
    .nil)))))))))))))))))))))))

theorem GameData.json_fields {keeps : F32 → Prop} {s : GameData} (h : s.JsonOk keeps) :
    FieldsOK keeps s GameData.jsonFields s.jsonPuts :=
  (.append (json_fields0 h) (.append (json_fields1 h) (.append (json_fields2 h) (.append (json_fields3 h) (.append (json_fields4 h) (json_fields5 h))))))

theorem GameData.json_names : NamesOK GameData.jsonFields := by decide +kernel

theorem beta_back (b : Bool) : (if b then some true else none).getD false = b := by cases b <;> rfl

theorem GameData.json_puts (s : GameData) : s.jsonPuts.foldl (fun b p => p b) GameData.jsonBase = s.jsonPart := by
  have h : s.jsonPuts.foldl (fun b p => p b) GameData.jsonBase = { s.jsonPart with is_10_8_0_beta1_to_beta4 := (if s.is_10_8_0_beta1_to_beta4 then some true else none).getD false } := rfl
  rw [h, beta_back]; rfl

theorem GameData.json_back {keeps : F32 → Prop} {s : GameData} (h : s.JsonOk keeps) :
    jGameData.ofJ (jGameData.toJ s) = .ok s.jsonPart :=
  (readJ_writeJ (json_fields h) json_names).trans (congrArg Except.ok s.json_puts)

theorem GameData.json_valid {keeps : F32 → Prop} {s : GameData} (h : s.JsonOk keeps) : (jGameData.toJ s).Valid keeps :=
  writeJ_valid (json_fields h) json_names

end Vpin
