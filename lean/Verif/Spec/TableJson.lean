import Verif.Model.GameData
import Verif.Spec.Json
import Verif.Spec.GameData
/-
Which game data and materials their JSON form can hold: numbers in plain fields are finite and kept by the JSON
text. Generated by tools/gen_tablejson.py.
-/
namespace Vpin

structure SavePhysicsMaterial.JsonOk (keeps : F32 → Prop) (s : SavePhysicsMaterial) : Prop where
  elasticity : AnyF32 keeps s.elasticity
  elasticity_falloff : AnyF32 keeps s.elasticity_falloff
  friction : AnyF32 keeps s.friction
  scatter_angle : AnyF32 keeps s.scatter_angle

structure SaveMaterial.JsonOk (keeps : F32 → Prop) (s : SaveMaterial) : Prop where
  wrap_lighting : PlainF32 keeps s.wrap_lighting
  roughness : PlainF32 keeps s.roughness
  edge : PlainF32 keeps s.edge
  opacity : PlainF32 keeps s.opacity

structure Material.JsonOk (keeps : F32 → Prop) (s : Material) : Prop where
  wrap_lighting : PlainF32 keeps s.wrap_lighting
  roughness : PlainF32 keeps s.roughness
  glossy_image_lerp : PlainF32 keeps s.glossy_image_lerp
  thickness : PlainF32 keeps s.thickness
  edge : PlainF32 keeps s.edge
  edge_alpha : PlainF32 keeps s.edge_alpha
  opacity : PlainF32 keeps s.opacity
  elasticity : AnyF32 keeps s.elasticity
  elasticity_falloff : AnyF32 keeps s.elasticity_falloff
  friction : AnyF32 keeps s.friction
  scatter_angle : AnyF32 keeps s.scatter_angle

/-- game data without what its JSON form does not hold: script, materials, render probes and counts -/
def GameData.jsonPart (s : GameData) : GameData := { s with
  materials_size := 0, materials_old := [], materials_physics_old := none, materials := none, render_probes := none, gameitems_size := 0, sounds_size := 0, images_size := 0, fonts_size := 0, collections_size := 0, code := ⟨.utf8, []⟩ }

structure GameData.JsonOk (keeps : F32 → Prop) (s : GameData) : Prop where
  left : PlainF32 keeps s.left
  top : PlainF32 keeps s.top
  right : PlainF32 keeps s.right
  bottom : PlainF32 keeps s.bottom
  bg_rotation_desktop : PlainF32 keeps s.bg_rotation_desktop
  bg_inclination_desktop : PlainF32 keeps s.bg_inclination_desktop
  bg_layback_desktop : PlainF32 keeps s.bg_layback_desktop
  bg_fov_desktop : PlainF32 keeps s.bg_fov_desktop
  bg_offset_x_desktop : PlainF32 keeps s.bg_offset_x_desktop
  bg_offset_y_desktop : PlainF32 keeps s.bg_offset_y_desktop
  bg_offset_z_desktop : PlainF32 keeps s.bg_offset_z_desktop
  bg_scale_x_desktop : PlainF32 keeps s.bg_scale_x_desktop
  bg_scale_y_desktop : PlainF32 keeps s.bg_scale_y_desktop
  bg_scale_z_desktop : PlainF32 keeps s.bg_scale_z_desktop
  bg_view_horizontal_offset_desktop : OptP (PlainF32 keeps) s.bg_view_horizontal_offset_desktop
  bg_view_vertical_offset_desktop : OptP (PlainF32 keeps) s.bg_view_vertical_offset_desktop
  bg_window_top_x_offset_desktop : OptP (PlainF32 keeps) s.bg_window_top_x_offset_desktop
  bg_window_top_y_offset_desktop : OptP (PlainF32 keeps) s.bg_window_top_y_offset_desktop
  bg_window_top_z_offset_desktop : OptP (PlainF32 keeps) s.bg_window_top_z_offset_desktop
  bg_window_bottom_x_offset_desktop : OptP (PlainF32 keeps) s.bg_window_bottom_x_offset_desktop
  bg_window_bottom_y_offset_desktop : OptP (PlainF32 keeps) s.bg_window_bottom_y_offset_desktop
  bg_window_bottom_z_offset_desktop : OptP (PlainF32 keeps) s.bg_window_bottom_z_offset_desktop
  bg_rotation_fullscreen : PlainF32 keeps s.bg_rotation_fullscreen
  bg_inclination_fullscreen : PlainF32 keeps s.bg_inclination_fullscreen
  bg_layback_fullscreen : PlainF32 keeps s.bg_layback_fullscreen
  bg_fov_fullscreen : PlainF32 keeps s.bg_fov_fullscreen
  bg_offset_x_fullscreen : PlainF32 keeps s.bg_offset_x_fullscreen
  bg_offset_y_fullscreen : PlainF32 keeps s.bg_offset_y_fullscreen
  bg_offset_z_fullscreen : PlainF32 keeps s.bg_offset_z_fullscreen
  bg_scale_x_fullscreen : PlainF32 keeps s.bg_scale_x_fullscreen
  bg_scale_y_fullscreen : PlainF32 keeps s.bg_scale_y_fullscreen
  bg_scale_z_fullscreen : PlainF32 keeps s.bg_scale_z_fullscreen
  bg_view_horizontal_offset_fullscreen : OptP (PlainF32 keeps) s.bg_view_horizontal_offset_fullscreen
  bg_view_vertical_offset_fullscreen : OptP (PlainF32 keeps) s.bg_view_vertical_offset_fullscreen
  bg_window_top_x_offset_fullscreen : OptP (PlainF32 keeps) s.bg_window_top_x_offset_fullscreen
  bg_window_top_y_offset_fullscreen : OptP (PlainF32 keeps) s.bg_window_top_y_offset_fullscreen
  bg_window_top_z_offset_fullscreen : OptP (PlainF32 keeps) s.bg_window_top_z_offset_fullscreen
  bg_window_bottom_x_offset_fullscreen : OptP (PlainF32 keeps) s.bg_window_bottom_x_offset_fullscreen
  bg_window_bottom_y_offset_fullscreen : OptP (PlainF32 keeps) s.bg_window_bottom_y_offset_fullscreen
  bg_window_bottom_z_offset_fullscreen : OptP (PlainF32 keeps) s.bg_window_bottom_z_offset_fullscreen
  bg_rotation_full_single_screen : OptP (PlainF32 keeps) s.bg_rotation_full_single_screen
  bg_inclination_full_single_screen : OptP (PlainF32 keeps) s.bg_inclination_full_single_screen
  bg_layback_full_single_screen : OptP (PlainF32 keeps) s.bg_layback_full_single_screen
  bg_fov_full_single_screen : OptP (PlainF32 keeps) s.bg_fov_full_single_screen
  bg_offset_x_full_single_screen : OptP (PlainF32 keeps) s.bg_offset_x_full_single_screen
  bg_offset_y_full_single_screen : OptP (AnyF32 keeps) s.bg_offset_y_full_single_screen
  bg_offset_z_full_single_screen : OptP (PlainF32 keeps) s.bg_offset_z_full_single_screen
  bg_scale_x_full_single_screen : OptP (PlainF32 keeps) s.bg_scale_x_full_single_screen
  bg_scale_y_full_single_screen : OptP (AnyF32 keeps) s.bg_scale_y_full_single_screen
  bg_scale_z_full_single_screen : OptP (PlainF32 keeps) s.bg_scale_z_full_single_screen
  bg_view_horizontal_offset_full_single_screen : OptP (PlainF32 keeps) s.bg_view_horizontal_offset_full_single_screen
  bg_view_vertical_offset_full_single_screen : OptP (PlainF32 keeps) s.bg_view_vertical_offset_full_single_screen
  bg_window_top_x_offset_full_single_screen : OptP (PlainF32 keeps) s.bg_window_top_x_offset_full_single_screen
  bg_window_top_y_offset_full_single_screen : OptP (PlainF32 keeps) s.bg_window_top_y_offset_full_single_screen
  bg_window_top_z_offset_full_single_screen : OptP (PlainF32 keeps) s.bg_window_top_z_offset_full_single_screen
  bg_window_bottom_x_offset_full_single_screen : OptP (PlainF32 keeps) s.bg_window_bottom_x_offset_full_single_screen
  bg_window_bottom_y_offset_full_single_screen : OptP (PlainF32 keeps) s.bg_window_bottom_y_offset_full_single_screen
  bg_window_bottom_z_offset_full_single_screen : OptP (PlainF32 keeps) s.bg_window_bottom_z_offset_full_single_screen
  gravity : PlainF32 keeps s.gravity
  friction : PlainF32 keeps s.friction
  elasticity : PlainF32 keeps s.elasticity
  elastic_falloff : PlainF32 keeps s.elastic_falloff
  scatter : PlainF32 keeps s.scatter
  default_scatter : PlainF32 keeps s.default_scatter
  nudge_time : PlainF32 keeps s.nudge_time
  offset_x : PlainF32 keeps s.offset_x
  offset_y : PlainF32 keeps s.offset_y
  zoom : PlainF32 keeps s.zoom
  angle_tilt_max : PlainF32 keeps s.angle_tilt_max
  angle_tilt_min : PlainF32 keeps s.angle_tilt_min
  stereo_max_separation : OptP (PlainF32 keeps) s.stereo_max_separation
  stereo_zero_parallax_displacement : OptP (PlainF32 keeps) s.stereo_zero_parallax_displacement
  stereo_offset : OptP (PlainF32 keeps) s.stereo_offset
  glass_top_height : PlainF32 keeps s.glass_top_height
  glass_bottom_height : OptP (PlainF32 keeps) s.glass_bottom_height
  table_height : OptP (PlainF32 keeps) s.table_height
  global_difficulty : PlainF32 keeps s.global_difficulty
  light_height : PlainF32 keeps s.light_height
  light_range : PlainF32 keeps s.light_range
  light_emission_scale : PlainF32 keeps s.light_emission_scale
  env_emission_scale : PlainF32 keeps s.env_emission_scale
  global_emission_scale : PlainF32 keeps s.global_emission_scale
  ao_scale : PlainF32 keeps s.ao_scale
  ssr_scale : OptP (PlainF32 keeps) s.ssr_scale
  ground_to_lockbar_height : OptP (PlainF32 keeps) s.ground_to_lockbar_height
  table_sound_volume : PlainF32 keeps s.table_sound_volume
  table_music_volume : PlainF32 keeps s.table_music_volume
  playfield_reflection_strength : PlainF32 keeps s.playfield_reflection_strength
  ball_playfield_reflection_strength : OptP (PlainF32 keeps) s.ball_playfield_reflection_strength
  default_bulb_intensity_scale_on_ball : OptP (PlainF32 keeps) s.default_bulb_intensity_scale_on_ball
  tone_mapper : OptP (ToneMapper.WF) s.tone_mapper
  bloom_strength : PlainF32 keeps s.bloom_strength
  custom_colors : s.custom_colors.length = 16
  exposure : OptP (PlainF32 keeps) s.exposure

end Vpin
