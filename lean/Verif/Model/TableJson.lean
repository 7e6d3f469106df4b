import Verif.Model.GameData
import Verif.Model.JsonCodec
/-
The JSON forms of game data and materials. Generated by tools/gen_tablejson.py from the source; each definition
cites what it models.
-/
namespace Vpin

/-- `[T; n]`: an array of exactly `n` values (used in /repo/src/vpx/material.rs:99-153) -/
def jArray {α : Type} (n : Nat) (c : Codec α) : Codec (List α) where
  toJ l := .arr (l.map c.toJ)
  ofJ | .arr l => if l.length = n then l.mapM c.ofJ else .error .io
      | _ => .error .io

/-- `StringWithEncoding::empty`, /repo/src/vpx/model.rs:80-85 -/
def StringWithEncoding.empty : StringWithEncoding := ⟨.utf8, []⟩

/-- `SavePhysicsMaterialJson`, /repo/src/vpx/material.rs:362-368, filled by /repo/src/vpx/material.rs:371-379 and read by
/repo/src/vpx/material.rs:380-388 -/
def SavePhysicsMaterial.jsonFields : List (JField SavePhysicsMaterial) :=
  [.req [key!"name"] jStr (·.name) fun v s => { s with name := v },
   .req [key!"elasticity"] jNanInf (·.elasticity) fun v s => { s with elasticity := v },
   .req [key!"elasticity_falloff"] jNanInf (·.elasticity_falloff) fun v s => { s with elasticity_falloff := v },
   .req [key!"friction"] jNanInf (·.friction) fun v s => { s with friction := v },
   .req [key!"scatter_angle"] jNanInf (·.scatter_angle) fun v s => { s with scatter_angle := v }]

/-- all fields are in the JSON form, /repo/src/vpx/material.rs:362-389 -/
def SavePhysicsMaterial.jsonBase : SavePhysicsMaterial := ⟨[], 0, 0, 0, 0⟩

/-- `Serialize` and `Deserialize` of `SavePhysicsMaterial`, /repo/src/vpx/material.rs:362-389 -/
def jSavePhysicsMaterial : Codec SavePhysicsMaterial := jStruct SavePhysicsMaterial.jsonFields SavePhysicsMaterial.jsonBase

/-- `SaveMaterialJson`, /repo/src/vpx/material.rs:216-229, filled by /repo/src/vpx/material.rs:232-247 and read by
/repo/src/vpx/material.rs:248-263 -/
def SaveMaterial.jsonFields : List (JField SaveMaterial) :=
  [.req [key!"name"] jStr (·.name) fun v s => { s with name := v },
   .req [key!"base_color"] jColor (·.base_color) fun v s => { s with base_color := v },
   .req [key!"glossy_color"] jColor (·.glossy_color) fun v s => { s with glossy_color := v },
   .req [key!"clearcoat_color"] jColor (·.clearcoat_color) fun v s => { s with clearcoat_color := v },
   .req [key!"wrap_lighting"] jF32 (·.wrap_lighting) fun v s => { s with wrap_lighting := v },
   .req [key!"is_metal"] jBool (·.is_metal) fun v s => { s with is_metal := v },
   .req [key!"roughness"] jF32 (·.roughness) fun v s => { s with roughness := v },
   .req [key!"glossy_image_lerp"] jU8 (·.glossy_image_lerp) fun v s => { s with glossy_image_lerp := v },
   .req [key!"edge"] jF32 (·.edge) fun v s => { s with edge := v },
   .req [key!"thickness"] jU8 (·.thickness) fun v s => { s with thickness := v },
   .req [key!"opacity"] jF32 (·.opacity) fun v s => { s with opacity := v },
   .req [key!"opacity_active_edge_alpha"] jU8 (·.opacity_active_edge_alpha) fun v s => { s with opacity_active_edge_alpha := v }]

/-- all fields are in the JSON form, /repo/src/vpx/material.rs:216-264 -/
def SaveMaterial.jsonBase : SaveMaterial := ⟨[], Color.rgb 0 0 0, Color.rgb 0 0 0, Color.rgb 0 0 0, 0, false, 0, 0, 0, 0, 0, 0⟩

/-- `Serialize` and `Deserialize` of `SaveMaterial`, /repo/src/vpx/material.rs:216-264 -/
def jSaveMaterial : Codec SaveMaterial := jStruct SaveMaterial.jsonFields SaveMaterial.jsonBase

/-- `MaterialJson`, /repo/src/vpx/material.rs:535-555, filled by /repo/src/vpx/material.rs:558-579 and read by
/repo/src/vpx/material.rs:580-601 -/
def Material.jsonFields : List (JField Material) :=
  [.req [key!"name"] jStr (·.name) fun v s => { s with name := v },
   .req [key!"type", key!"type_"] ⟨MaterialType.toJ, MaterialType.ofJ⟩ (·.type_) fun v s => { s with type_ := v },
   .req [key!"wrap_lighting"] jF32 (·.wrap_lighting) fun v s => { s with wrap_lighting := v },
   .req [key!"roughness"] jF32 (·.roughness) fun v s => { s with roughness := v },
   .req [key!"glossy_image_lerp"] jF32 (·.glossy_image_lerp) fun v s => { s with glossy_image_lerp := v },
   .req [key!"thickness"] jF32 (·.thickness) fun v s => { s with thickness := v },
   .req [key!"edge"] jF32 (·.edge) fun v s => { s with edge := v },
   .req [key!"edge_alpha"] jF32 (·.edge_alpha) fun v s => { s with edge_alpha := v },
   .req [key!"opacity"] jF32 (·.opacity) fun v s => { s with opacity := v },
   .req [key!"base_color"] jColor (·.base_color) fun v s => { s with base_color := v },
   .req [key!"glossy_color"] jColor (·.glossy_color) fun v s => { s with glossy_color := v },
   .req [key!"clearcoat_color"] jColor (·.clearcoat_color) fun v s => { s with clearcoat_color := v },
   .req [key!"opacity_active"] jBool (·.opacity_active) fun v s => { s with opacity_active := v },
   .req [key!"elasticity"] jNanInf (·.elasticity) fun v s => { s with elasticity := v },
   .req [key!"elasticity_falloff"] jNanInf (·.elasticity_falloff) fun v s => { s with elasticity_falloff := v },
   .req [key!"friction"] jNanInf (·.friction) fun v s => { s with friction := v },
   .req [key!"scatter_angle"] jNanInf (·.scatter_angle) fun v s => { s with scatter_angle := v },
   .req [key!"refraction_tint"] jColor (·.refraction_tint) fun v s => { s with refraction_tint := v }]

/-- all fields are in the JSON form, /repo/src/vpx/material.rs:535-602 -/
def Material.jsonBase : Material := Material.default

/-- `Serialize` and `Deserialize` of `Material`, /repo/src/vpx/material.rs:535-602 -/
def jMaterial : Codec Material := jStruct Material.jsonFields Material.jsonBase

/-- `GameDataJson`, /repo/src/vpx/gamedata.rs:1044-1192, filled by /repo/src/vpx/gamedata.rs:1372-1534 and read by
/repo/src/vpx/gamedata.rs:1195-1370 -/
def GameData.jsonFields0 : List (JField GameData) :=
  [.req [key!"left"] jF32 (·.left) fun v s => { s with left := v },
   .req [key!"top"] jF32 (·.top) fun v s => { s with top := v },
   .req [key!"right"] jF32 (·.right) fun v s => { s with right := v },
   .req [key!"bottom"] jF32 (·.bottom) fun v s => { s with bottom := v },
   .optSkip [key!"camera_layout_mode"] jU32 (·.camera_layout_mode) fun v s => { s with camera_layout_mode := v },
   .opt [key!"bg_view_mode_desktop"] ⟨ViewLayoutMode.toJ, ViewLayoutMode.ofJ⟩ (·.bg_view_mode_desktop) fun v s => { s with bg_view_mode_desktop := v },
   .req [key!"bg_rotation_desktop"] jF32 (·.bg_rotation_desktop) fun v s => { s with bg_rotation_desktop := v },
   .req [key!"bg_inclination_desktop"] jF32 (·.bg_inclination_desktop) fun v s => { s with bg_inclination_desktop := v },
   .req [key!"bg_layback_desktop"] jF32 (·.bg_layback_desktop) fun v s => { s with bg_layback_desktop := v },
   .req [key!"bg_fov_desktop"] jF32 (·.bg_fov_desktop) fun v s => { s with bg_fov_desktop := v },
   .req [key!"bg_offset_x_desktop"] jF32 (·.bg_offset_x_desktop) fun v s => { s with bg_offset_x_desktop := v },
   .req [key!"bg_offset_y_desktop"] jF32 (·.bg_offset_y_desktop) fun v s => { s with bg_offset_y_desktop := v },
   .req [key!"bg_offset_z_desktop"] jF32 (·.bg_offset_z_desktop) fun v s => { s with bg_offset_z_desktop := v },
   .req [key!"bg_scale_x_desktop"] jF32 (·.bg_scale_x_desktop) fun v s => { s with bg_scale_x_desktop := v },
   .req [key!"bg_scale_y_desktop"] jF32 (·.bg_scale_y_desktop) fun v s => { s with bg_scale_y_desktop := v },
   .req [key!"bg_scale_z_desktop"] jF32 (·.bg_scale_z_desktop) fun v s => { s with bg_scale_z_desktop := v },
   .opt [key!"bg_enable_fss"] jBool (·.bg_enable_fss) fun v s => { s with bg_enable_fss := v },
   .opt [key!"bg_view_horizontal_offset_desktop"] jF32 (·.bg_view_horizontal_offset_desktop) fun v s => { s with bg_view_horizontal_offset_desktop := v },
   .opt [key!"bg_view_vertical_offset_desktop"] jF32 (·.bg_view_vertical_offset_desktop) fun v s => { s with bg_view_vertical_offset_desktop := v },
   .opt [key!"bg_window_top_x_offset_desktop"] jF32 (·.bg_window_top_x_offset_desktop) fun v s => { s with bg_window_top_x_offset_desktop := v },
   .opt [key!"bg_window_top_y_offset_desktop"] jF32 (·.bg_window_top_y_offset_desktop) fun v s => { s with bg_window_top_y_offset_desktop := v },
   .opt [key!"bg_window_top_z_offset_desktop"] jF32 (·.bg_window_top_z_offset_desktop) fun v s => { s with bg_window_top_z_offset_desktop := v },
   .opt [key!"bg_window_bottom_x_offset_desktop"] jF32 (·.bg_window_bottom_x_offset_desktop) fun v s => { s with bg_window_bottom_x_offset_desktop := v },
   .opt [key!"bg_window_bottom_y_offset_desktop"] jF32 (·.bg_window_bottom_y_offset_desktop) fun v s => { s with bg_window_bottom_y_offset_desktop := v }]

/-- fields 25 to 48, /repo/src/vpx/gamedata.rs:1044-1192 -/
def GameData.jsonFields1 : List (JField GameData) :=
  [.opt [key!"bg_window_bottom_z_offset_desktop"] jF32 (·.bg_window_bottom_z_offset_desktop) fun v s => { s with bg_window_bottom_z_offset_desktop := v },
   .opt [key!"bg_view_mode_fullscreen"] ⟨ViewLayoutMode.toJ, ViewLayoutMode.ofJ⟩ (·.bg_view_mode_fullscreen) fun v s => { s with bg_view_mode_fullscreen := v },
   .req [key!"bg_rotation_fullscreen"] jF32 (·.bg_rotation_fullscreen) fun v s => { s with bg_rotation_fullscreen := v },
   .req [key!"bg_inclination_fullscreen"] jF32 (·.bg_inclination_fullscreen) fun v s => { s with bg_inclination_fullscreen := v },
   .req [key!"bg_layback_fullscreen"] jF32 (·.bg_layback_fullscreen) fun v s => { s with bg_layback_fullscreen := v },
   .req [key!"bg_fov_fullscreen"] jF32 (·.bg_fov_fullscreen) fun v s => { s with bg_fov_fullscreen := v },
   .req [key!"bg_offset_x_fullscreen"] jF32 (·.bg_offset_x_fullscreen) fun v s => { s with bg_offset_x_fullscreen := v },
   .req [key!"bg_offset_y_fullscreen"] jF32 (·.bg_offset_y_fullscreen) fun v s => { s with bg_offset_y_fullscreen := v },
   .req [key!"bg_offset_z_fullscreen"] jF32 (·.bg_offset_z_fullscreen) fun v s => { s with bg_offset_z_fullscreen := v },
   .req [key!"bg_scale_x_fullscreen"] jF32 (·.bg_scale_x_fullscreen) fun v s => { s with bg_scale_x_fullscreen := v },
   .req [key!"bg_scale_y_fullscreen"] jF32 (·.bg_scale_y_fullscreen) fun v s => { s with bg_scale_y_fullscreen := v },
   .req [key!"bg_scale_z_fullscreen"] jF32 (·.bg_scale_z_fullscreen) fun v s => { s with bg_scale_z_fullscreen := v },
   .opt [key!"bg_view_horizontal_offset_fullscreen"] jF32 (·.bg_view_horizontal_offset_fullscreen) fun v s => { s with bg_view_horizontal_offset_fullscreen := v },
   .opt [key!"bg_view_vertical_offset_fullscreen"] jF32 (·.bg_view_vertical_offset_fullscreen) fun v s => { s with bg_view_vertical_offset_fullscreen := v },
   .opt [key!"bg_window_top_x_offset_fullscreen"] jF32 (·.bg_window_top_x_offset_fullscreen) fun v s => { s with bg_window_top_x_offset_fullscreen := v },
   .opt [key!"bg_window_top_y_offset_fullscreen"] jF32 (·.bg_window_top_y_offset_fullscreen) fun v s => { s with bg_window_top_y_offset_fullscreen := v },
   .opt [key!"bg_window_top_z_offset_fullscreen"] jF32 (·.bg_window_top_z_offset_fullscreen) fun v s => { s with bg_window_top_z_offset_fullscreen := v },
   .opt [key!"bg_window_bottom_x_offset_fullscreen"] jF32 (·.bg_window_bottom_x_offset_fullscreen) fun v s => { s with bg_window_bottom_x_offset_fullscreen := v },
   .opt [key!"bg_window_bottom_y_offset_fullscreen"] jF32 (·.bg_window_bottom_y_offset_fullscreen) fun v s => { s with bg_window_bottom_y_offset_fullscreen := v },
   .opt [key!"bg_window_bottom_z_offset_fullscreen"] jF32 (·.bg_window_bottom_z_offset_fullscreen) fun v s => { s with bg_window_bottom_z_offset_fullscreen := v },
   .opt [key!"bg_view_mode_full_single_screen"] ⟨ViewLayoutMode.toJ, ViewLayoutMode.ofJ⟩ (·.bg_view_mode_full_single_screen) fun v s => { s with bg_view_mode_full_single_screen := v },
   .opt [key!"bg_rotation_full_single_screen"] jF32 (·.bg_rotation_full_single_screen) fun v s => { s with bg_rotation_full_single_screen := v },
   .opt [key!"bg_inclination_full_single_screen"] jF32 (·.bg_inclination_full_single_screen) fun v s => { s with bg_inclination_full_single_screen := v },
   .opt [key!"bg_layback_full_single_screen"] jF32 (·.bg_layback_full_single_screen) fun v s => { s with bg_layback_full_single_screen := v }]

/-- fields 49 to 72, /repo/src/vpx/gamedata.rs:1044-1192 -/
def GameData.jsonFields2 : List (JField GameData) :=
  [.opt [key!"bg_fov_full_single_screen"] jF32 (·.bg_fov_full_single_screen) fun v s => { s with bg_fov_full_single_screen := v },
   .opt [key!"bg_offset_x_full_single_screen"] jF32 (·.bg_offset_x_full_single_screen) fun v s => { s with bg_offset_x_full_single_screen := v },
   .opt [key!"bg_offset_y_full_single_screen"] jNanInf (·.bg_offset_y_full_single_screen) fun v s => { s with bg_offset_y_full_single_screen := v },
   .opt [key!"bg_offset_z_full_single_screen"] jF32 (·.bg_offset_z_full_single_screen) fun v s => { s with bg_offset_z_full_single_screen := v },
   .opt [key!"bg_scale_x_full_single_screen"] jF32 (·.bg_scale_x_full_single_screen) fun v s => { s with bg_scale_x_full_single_screen := v },
   .opt [key!"bg_scale_y_full_single_screen"] jNanInf (·.bg_scale_y_full_single_screen) fun v s => { s with bg_scale_y_full_single_screen := v },
   .opt [key!"bg_scale_z_full_single_screen"] jF32 (·.bg_scale_z_full_single_screen) fun v s => { s with bg_scale_z_full_single_screen := v },
   .opt [key!"bg_view_horizontal_offset_full_single_screen"] jF32 (·.bg_view_horizontal_offset_full_single_screen) fun v s => { s with bg_view_horizontal_offset_full_single_screen := v },
   .opt [key!"bg_view_vertical_offset_full_single_screen"] jF32 (·.bg_view_vertical_offset_full_single_screen) fun v s => { s with bg_view_vertical_offset_full_single_screen := v },
   .opt [key!"bg_window_top_x_offset_full_single_screen"] jF32 (·.bg_window_top_x_offset_full_single_screen) fun v s => { s with bg_window_top_x_offset_full_single_screen := v },
   .opt [key!"bg_window_top_y_offset_full_single_screen"] jF32 (·.bg_window_top_y_offset_full_single_screen) fun v s => { s with bg_window_top_y_offset_full_single_screen := v },
   .opt [key!"bg_window_top_z_offset_full_single_screen"] jF32 (·.bg_window_top_z_offset_full_single_screen) fun v s => { s with bg_window_top_z_offset_full_single_screen := v },
   .opt [key!"bg_window_bottom_x_offset_full_single_screen"] jF32 (·.bg_window_bottom_x_offset_full_single_screen) fun v s => { s with bg_window_bottom_x_offset_full_single_screen := v },
   .opt [key!"bg_window_bottom_y_offset_full_single_screen"] jF32 (·.bg_window_bottom_y_offset_full_single_screen) fun v s => { s with bg_window_bottom_y_offset_full_single_screen := v },
   .opt [key!"bg_window_bottom_z_offset_full_single_screen"] jF32 (·.bg_window_bottom_z_offset_full_single_screen) fun v s => { s with bg_window_bottom_z_offset_full_single_screen := v },
   .req [key!"override_physics"] jU32 (·.override_physics) fun v s => { s with override_physics := v },
   .opt [key!"override_physics_flipper"] jBool (·.override_physics_flipper) fun v s => { s with override_physics_flipper := v },
   .req [key!"gravity"] jF32 (·.gravity) fun v s => { s with gravity := v },
   .req [key!"friction"] jF32 (·.friction) fun v s => { s with friction := v },
   .req [key!"elasticity"] jF32 (·.elasticity) fun v s => { s with elasticity := v },
   .req [key!"elastic_falloff"] jF32 (·.elastic_falloff) fun v s => { s with elastic_falloff := v },
   .req [key!"scatter"] jF32 (·.scatter) fun v s => { s with scatter := v },
   .req [key!"default_scatter"] jF32 (·.default_scatter) fun v s => { s with default_scatter := v },
   .req [key!"nudge_time"] jF32 (·.nudge_time) fun v s => { s with nudge_time := v }]

/-- fields 73 to 96, /repo/src/vpx/gamedata.rs:1044-1192 -/
def GameData.jsonFields3 : List (JField GameData) :=
  [.opt [key!"plunger_normalize"] jU32 (·.plunger_normalize) fun v s => { s with plunger_normalize := v },
   .opt [key!"plunger_filter"] jBool (·.plunger_filter) fun v s => { s with plunger_filter := v },
   .req [key!"physics_max_loops"] jU32 (·.physics_max_loops) fun v s => { s with physics_max_loops := v },
   .req [key!"render_em_reels"] jBool (·.render_em_reels) fun v s => { s with render_em_reels := v },
   .req [key!"render_decals"] jBool (·.render_decals) fun v s => { s with render_decals := v },
   .req [key!"offset_x"] jF32 (·.offset_x) fun v s => { s with offset_x := v },
   .req [key!"offset_y"] jF32 (·.offset_y) fun v s => { s with offset_y := v },
   .req [key!"zoom"] jF32 (·.zoom) fun v s => { s with zoom := v },
   .req [key!"angle_tilt_max"] jF32 (·.angle_tilt_max) fun v s => { s with angle_tilt_max := v },
   .req [key!"angle_tilt_min"] jF32 (·.angle_tilt_min) fun v s => { s with angle_tilt_min := v },
   .opt [key!"stereo_max_separation"] jF32 (·.stereo_max_separation) fun v s => { s with stereo_max_separation := v },
   .opt [key!"stereo_zero_parallax_displacement"] jF32 (·.stereo_zero_parallax_displacement) fun v s => { s with stereo_zero_parallax_displacement := v },
   .opt [key!"stereo_offset"] jF32 (·.stereo_offset) fun v s => { s with stereo_offset := v },
   .opt [key!"overwrite_global_stereo3d"] jBool (·.overwrite_global_stereo3d) fun v s => { s with overwrite_global_stereo3d := v },
   .req [key!"image"] jStr (·.image) fun v s => { s with image := v },
   .req [key!"backglass_image_full_desktop"] jStr (·.backglass_image_full_desktop) fun v s => { s with backglass_image_full_desktop := v },
   .req [key!"backglass_image_full_fullscreen"] jStr (·.backglass_image_full_fullscreen) fun v s => { s with backglass_image_full_fullscreen := v },
   .opt [key!"backglass_image_full_single_screen"] jStr (·.backglass_image_full_single_screen) fun v s => { s with backglass_image_full_single_screen := v },
   .req [key!"image_backdrop_night_day"] jBool (·.image_backdrop_night_day) fun v s => { s with image_backdrop_night_day := v },
   .req [key!"image_color_grade"] jStr (·.image_color_grade) fun v s => { s with image_color_grade := v },
   .req [key!"ball_image"] jStr (·.ball_image) fun v s => { s with ball_image := v },
   .opt [key!"ball_spherical_mapping"] jBool (·.ball_spherical_mapping) fun v s => { s with ball_spherical_mapping := v },
   .req [key!"ball_image_front"] jStr (·.ball_image_front) fun v s => { s with ball_image_front := v },
   .opt [key!"env_image"] jStr (·.env_image) fun v s => { s with env_image := v }]

/-- fields 97 to 120, /repo/src/vpx/gamedata.rs:1044-1192 -/
def GameData.jsonFields4 : List (JField GameData) :=
  [.opt [key!"notes"] jStr (·.notes) fun v s => { s with notes := v },
   .req [key!"screen_shot"] jStr (·.screen_shot) fun v s => { s with screen_shot := v },
   .req [key!"display_backdrop"] jBool (·.display_backdrop) fun v s => { s with display_backdrop := v },
   .req [key!"glass_top_height"] jF32 (·.glass_top_height) fun v s => { s with glass_top_height := v },
   .opt [key!"glass_bottom_height"] jF32 (·.glass_bottom_height) fun v s => { s with glass_bottom_height := v },
   .opt [key!"table_height"] jF32 (·.table_height) fun v s => { s with table_height := v },
   .req [key!"playfield_material"] jStr (·.playfield_material) fun v s => { s with playfield_material := v },
   .req [key!"backdrop_color"] jColor (·.backdrop_color) fun v s => { s with backdrop_color := v },
   .req [key!"global_difficulty"] jF32 (·.global_difficulty) fun v s => { s with global_difficulty := v },
   .req [key!"light_ambient"] jColor (·.light_ambient) fun v s => { s with light_ambient := v },
   .req [key!"light0_emission"] jColor (·.light0_emission) fun v s => { s with light0_emission := v },
   .req [key!"light_height"] jF32 (·.light_height) fun v s => { s with light_height := v },
   .req [key!"light_range"] jF32 (·.light_range) fun v s => { s with light_range := v },
   .req [key!"light_emission_scale"] jF32 (·.light_emission_scale) fun v s => { s with light_emission_scale := v },
   .req [key!"env_emission_scale"] jF32 (·.env_emission_scale) fun v s => { s with env_emission_scale := v },
   .req [key!"global_emission_scale"] jF32 (·.global_emission_scale) fun v s => { s with global_emission_scale := v },
   .req [key!"ao_scale"] jF32 (·.ao_scale) fun v s => { s with ao_scale := v },
   .opt [key!"ssr_scale"] jF32 (·.ssr_scale) fun v s => { s with ssr_scale := v },
   .opt [key!"ground_to_lockbar_height"] jF32 (·.ground_to_lockbar_height) fun v s => { s with ground_to_lockbar_height := v },
   .req [key!"table_sound_volume"] jF32 (·.table_sound_volume) fun v s => { s with table_sound_volume := v },
   .req [key!"table_music_volume"] jF32 (·.table_music_volume) fun v s => { s with table_music_volume := v },
   .opt [key!"table_adaptive_vsync"] jI32 (·.table_adaptive_vsync) fun v s => { s with table_adaptive_vsync := v },
   .opt [key!"use_reflection_for_balls"] jI32 (·.use_reflection_for_balls) fun v s => { s with use_reflection_for_balls := v },
   .opt [key!"brst"] jI32 (·.brst) fun v s => { s with brst := v }]

/-- fields 121 to 143, /repo/src/vpx/gamedata.rs:1044-1192 -/
def GameData.jsonFields5 : List (JField GameData) :=
  [.req [key!"playfield_reflection_strength"] jF32 (·.playfield_reflection_strength) fun v s => { s with playfield_reflection_strength := v },
   .opt [key!"use_trail_for_balls"] jI32 (·.use_trail_for_balls) fun v s => { s with use_trail_for_balls := v },
   .req [key!"ball_decal_mode"] jBool (·.ball_decal_mode) fun v s => { s with ball_decal_mode := v },
   .opt [key!"ball_playfield_reflection_strength"] jF32 (·.ball_playfield_reflection_strength) fun v s => { s with ball_playfield_reflection_strength := v },
   .opt [key!"default_bulb_intensity_scale_on_ball"] jF32 (·.default_bulb_intensity_scale_on_ball) fun v s => { s with default_bulb_intensity_scale_on_ball := v },
   .opt [key!"ball_trail_strength"] jU32 (·.ball_trail_strength) fun v s => { s with ball_trail_strength := v },
   .opt [key!"user_detail_level"] jU32 (·.user_detail_level) fun v s => { s with user_detail_level := v },
   .opt [key!"overwrite_global_detail_level"] jBool (·.overwrite_global_detail_level) fun v s => { s with overwrite_global_detail_level := v },
   .opt [key!"overwrite_global_day_night"] jBool (·.overwrite_global_day_night) fun v s => { s with overwrite_global_day_night := v },
   .req [key!"show_grid"] jBool (·.show_grid) fun v s => { s with show_grid := v },
   .opt [key!"reflect_elements_on_playfield"] jBool (·.reflect_elements_on_playfield) fun v s => { s with reflect_elements_on_playfield := v },
   .opt [key!"use_aal"] jI32 (·.use_aal) fun v s => { s with use_aal := v },
   .opt [key!"use_fxaa"] jI32 (·.use_fxaa) fun v s => { s with use_fxaa := v },
   .opt [key!"use_ao"] jI32 (·.use_ao) fun v s => { s with use_ao := v },
   .opt [key!"use_ssr"] jI32 (·.use_ssr) fun v s => { s with use_ssr := v },
   .opt [key!"tone_mapper"] ⟨ToneMapper.toJ, ToneMapper.ofJ⟩ (·.tone_mapper) fun v s => { s with tone_mapper := v },
   .req [key!"bloom_strength"] jF32 (·.bloom_strength) fun v s => { s with bloom_strength := v },
   .req [key!"name"] jStr (·.name) fun v s => { s with name := v },
   .req [key!"custom_colors"] (jArray 16 jColor) (·.custom_colors) fun v s => { s with custom_colors := v },
   .opt [key!"protection_data"] (jVec jU8) (·.protection_data) fun v s => { s with protection_data := v },
   .opt [key!"locked"] jU32 (·.locked) fun v s => { s with locked := v },
   .optSkip [key!"exposure"] jF32 (·.exposure) fun v s => { s with exposure := v },
   .optSkip [key!"is_10_8_0_beta1_to_beta4"] jBool (fun s => if s.is_10_8_0_beta1_to_beta4 then some true else none) fun v s => { s with is_10_8_0_beta1_to_beta4 := v.getD false }]

/-- all fields, /repo/src/vpx/gamedata.rs:1044-1192 -/
def GameData.jsonFields : List (JField GameData) := (GameData.jsonFields0 ++ (GameData.jsonFields1 ++ (GameData.jsonFields2 ++ (GameData.jsonFields3 ++ (GameData.jsonFields4 ++ GameData.jsonFields5)))))

/-- the fields that are not in the JSON form, /repo/src/vpx/gamedata.rs:1195-1370 -/
def GameData.jsonBase : GameData := { GameData.default with
  materials_size := 0, materials_old := [], materials_physics_old := none, materials := none, render_probes := none, gameitems_size := 0, sounds_size := 0, images_size := 0, fonts_size := 0, collections_size := 0, code := StringWithEncoding.empty }

/-- `Serialize` and `Deserialize` of `GameData`, /repo/src/vpx/gamedata.rs:1044-1192 -/
def jGameData : Codec GameData := jStruct GameData.jsonFields GameData.jsonBase

end Vpin
