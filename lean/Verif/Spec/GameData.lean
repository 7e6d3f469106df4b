import Verif.Model.GameData
import Verif.Spec.Structs
/-
Which game data the file format can hold. Generated by tools/gen_gamedata.py.
-/
namespace Vpin


/-- A script as it comes out of a file: bytes without NUL, taken as UTF-8 if they are UTF-8 and as
Latin-1 otherwise. -/
def Script (s : StringWithEncoding) : Prop :=
  ∃ d : Bytes, 0 ∉ d ∧ d.length < 2 ^ 32 ∧ s = StringWithEncoding.ofBytes d

/-- Every text is representable, quantised levels are exact, and lists that the format cannot tell
from absent ones are not empty. -/
def GameData.Fields (s : GameData) : Prop :=
  (Text s.image) ∧
  (Text s.backglass_image_full_desktop) ∧
  (Text s.backglass_image_full_fullscreen) ∧
  (OptP Text s.backglass_image_full_single_screen) ∧
  (Text s.image_color_grade) ∧
  (Text s.ball_image) ∧
  (Text s.ball_image_front) ∧
  (OptP Text s.env_image) ∧
  (OptP Text s.notes) ∧
  (Text s.screen_shot) ∧
  (Text s.playfield_material) ∧
  (Level8 s.playfield_reflection_strength) ∧
  (OptP ToneMapper.WF s.tone_mapper) ∧
  ((fun l => ∀ m ∈ l, Name31 m.name) s.materials_old) ∧
  (OptP (fun l => ∀ m ∈ l, Name31 m.name) s.materials_physics_old) ∧
  (OptP (fun l => l ≠ [] ∧ ∀ m ∈ l, Text m.name) s.materials) ∧
  (OptP (fun l => l ≠ [] ∧ ∀ p ∈ l, Text p.render_probe.name) s.render_probes) ∧
  (WText s.name) ∧
  ((fun l => l.length = 16) s.custom_colors) ∧
  (OptP RecordData s.protection_data) ∧
  (Script s.code)

/-- The number of materials agrees with the legacy material tables, and every table, material and
render probe fits in a record of a 32 bit size. -/
def GameData.Fits (s : GameData) : Prop :=
  s.materials_old.length = s.materials_size.toNat ∧ 4 + 76 * s.materials_old.length < 2 ^ 32 ∧
  OptP (fun l => l.length = s.materials_size.toNat) s.materials_physics_old ∧
  (∀ m ∈ s.materials.getD [], ∃ bs, m.write = .ok bs ∧ RecordData bs) ∧
  (∀ p ∈ s.render_probes.getD [], ∃ bs, p.write = .ok bs ∧ RecordData bs)

/-- The flag for the beta versions is only set for a table of version 1080 with an EFSS setting; such
a table without the flag has no camera layout mode (CLMO). -/
def GameData.EfssOk (version : UInt32) (s : GameData) : Prop :=
  (s.is_10_8_0_beta1_to_beta4 = true → version = 1080 ∧ s.bg_enable_fss.isSome) ∧
  (version = 1080 → s.is_10_8_0_beta1_to_beta4 = false → s.bg_enable_fss.isSome →
    s.camera_layout_mode = none)

/-- game data that survives being stored in a table of this version -/
def GameData.WF (version : UInt32) (s : GameData) : Prop :=
  s.Fields ∧ s.Fits ∧ s.EfssOk version

/-- game data with every optional part present -/
def GameData.sample : GameData where
  left := 0x3fc00000
  top := 0x3fc00000
  right := 0x3fc00000
  bottom := 0x3fc00000
  camera_layout_mode := some 7
  bg_enable_fss := some true
  is_10_8_0_beta1_to_beta4 := true
  bg_view_mode_desktop := some .Window
  bg_rotation_desktop := 0x3fc00000
  bg_inclination_desktop := 0x3fc00000
  bg_layback_desktop := 0x3fc00000
  bg_fov_desktop := 0x3fc00000
  bg_offset_x_desktop := 0x3fc00000
  bg_offset_y_desktop := 0x3fc00000
  bg_offset_z_desktop := 0x3fc00000
  bg_scale_x_desktop := 0x3fc00000
  bg_scale_y_desktop := 0x3fc00000
  bg_scale_z_desktop := 0x3fc00000
  bg_view_horizontal_offset_desktop := some 0x3fc00000
  bg_view_vertical_offset_desktop := some 0x3fc00000
  bg_window_top_x_offset_desktop := some 0x3fc00000
  bg_window_top_y_offset_desktop := some 0x3fc00000
  bg_window_top_z_offset_desktop := some 0x3fc00000
  bg_window_bottom_x_offset_desktop := some 0x3fc00000
  bg_window_bottom_y_offset_desktop := some 0x3fc00000
  bg_window_bottom_z_offset_desktop := some 0x3fc00000
  bg_view_mode_fullscreen := some .Window
  bg_rotation_fullscreen := 0x3fc00000
  bg_inclination_fullscreen := 0x3fc00000
  bg_layback_fullscreen := 0x3fc00000
  bg_fov_fullscreen := 0x3fc00000
  bg_offset_x_fullscreen := 0x3fc00000
  bg_offset_y_fullscreen := 0x3fc00000
  bg_offset_z_fullscreen := 0x3fc00000
  bg_scale_x_fullscreen := 0x3fc00000
  bg_scale_y_fullscreen := 0x3fc00000
  bg_scale_z_fullscreen := 0x3fc00000
  bg_view_horizontal_offset_fullscreen := some 0x3fc00000
  bg_view_vertical_offset_fullscreen := some 0x3fc00000
  bg_window_top_x_offset_fullscreen := some 0x3fc00000
  bg_window_top_y_offset_fullscreen := some 0x3fc00000
  bg_window_top_z_offset_fullscreen := some 0x3fc00000
  bg_window_bottom_x_offset_fullscreen := some 0x3fc00000
  bg_window_bottom_y_offset_fullscreen := some 0x3fc00000
  bg_window_bottom_z_offset_fullscreen := some 0x3fc00000
  bg_view_mode_full_single_screen := some .Window
  bg_rotation_full_single_screen := some 0x3fc00000
  bg_inclination_full_single_screen := some 0x3fc00000
  bg_layback_full_single_screen := some 0x3fc00000
  bg_fov_full_single_screen := some 0x3fc00000
  bg_offset_x_full_single_screen := some 0x3fc00000
  bg_offset_y_full_single_screen := some 0x3fc00000
  bg_offset_z_full_single_screen := some 0x3fc00000
  bg_scale_x_full_single_screen := some 0x3fc00000
  bg_scale_y_full_single_screen := some 0x3fc00000
  bg_scale_z_full_single_screen := some 0x3fc00000
  bg_view_horizontal_offset_full_single_screen := some 0x3fc00000
  bg_view_vertical_offset_full_single_screen := some 0x3fc00000
  bg_window_top_x_offset_full_single_screen := some 0x3fc00000
  bg_window_top_y_offset_full_single_screen := some 0x3fc00000
  bg_window_top_z_offset_full_single_screen := some 0x3fc00000
  bg_window_bottom_x_offset_full_single_screen := some 0x3fc00000
  bg_window_bottom_y_offset_full_single_screen := some 0x3fc00000
  bg_window_bottom_z_offset_full_single_screen := some 0x3fc00000
  override_physics := 7
  override_physics_flipper := some true
  gravity := 0x3fc00000
  friction := 0x3fc00000
  elasticity := 0x3fc00000
  elastic_falloff := 0x3fc00000
  scatter := 0x3fc00000
  default_scatter := 0x3fc00000
  nudge_time := 0x3fc00000
  plunger_normalize := some 7
  plunger_filter := some true
  physics_max_loops := 7
  render_em_reels := true
  render_decals := true
  offset_x := 0x3fc00000
  offset_y := 0x3fc00000
  zoom := 0x3fc00000
  angle_tilt_max := 0x3fc00000
  angle_tilt_min := 0x3fc00000
  stereo_max_separation := some 0x3fc00000
  stereo_zero_parallax_displacement := some 0x3fc00000
  stereo_offset := some 0x3fc00000
  overwrite_global_stereo3d := some true
  image := "caf\u00e9 1".toList
  backglass_image_full_desktop := "caf\u00e9 1".toList
  backglass_image_full_fullscreen := "caf\u00e9 1".toList
  backglass_image_full_single_screen := some ("caf\u00e9 1".toList)
  image_backdrop_night_day := true
  image_color_grade := "caf\u00e9 1".toList
  ball_image := "caf\u00e9 1".toList
  ball_spherical_mapping := some true
  ball_image_front := "caf\u00e9 1".toList
  env_image := some ("caf\u00e9 1".toList)
  notes := some ("caf\u00e9 1".toList)
  screen_shot := "caf\u00e9 1".toList
  display_backdrop := true
  glass_top_height := 0x3fc00000
  glass_bottom_height := some 0x3fc00000
  table_height := some 0x3fc00000
  playfield_material := "caf\u00e9 1".toList
  backdrop_color := Color.rgb 1 2 3
  global_difficulty := 0x3fc00000
  light_ambient := Color.rgb 1 2 3
  light0_emission := Color.rgb 1 2 3
  light_height := 0x3fc00000
  light_range := 0x3fc00000
  light_emission_scale := 0x3fc00000
  env_emission_scale := 0x3fc00000
  global_emission_scale := 0x3fc00000
  ao_scale := 0x3fc00000
  ssr_scale := some 0x3fc00000
  ground_to_lockbar_height := some 0x3fc00000
  table_sound_volume := 0x3fc00000
  table_music_volume := 0x3fc00000
  table_adaptive_vsync := some (-7)
  use_reflection_for_balls := some (-7)
  brst := some (-7)
  playfield_reflection_strength := (dequantize8 128)
  use_trail_for_balls := some (-7)
  ball_decal_mode := true
  ball_playfield_reflection_strength := some 0x3fc00000
  default_bulb_intensity_scale_on_ball := some 0x3fc00000
  ball_trail_strength := some 7
  user_detail_level := some 7
  overwrite_global_detail_level := some true
  overwrite_global_day_night := some true
  show_grid := true
  reflect_elements_on_playfield := some true
  use_aal := some (-7)
  use_fxaa := some (-7)
  use_ao := some (-7)
  use_ssr := some (-7)
  tone_mapper := some (.Other 77)
  exposure := some 0x3fc00000
  bloom_strength := 0x3fc00000
  materials_size := 2
  materials_old := [SaveMaterial.sample, SaveMaterial.sample]
  materials_physics_old := some [SavePhysicsMaterial.sample, SavePhysicsMaterial.sample]
  materials := some [Material.sample]
  render_probes := some [⟨RenderProbe.sample, [1, 2]⟩]
  gameitems_size := 7
  sounds_size := 7
  images_size := 7
  fonts_size := 7
  collections_size := 7
  name := "na\u03bcme 😀".toList
  custom_colors := List.replicate 16 (Color.rgb 1 2 3)
  protection_data := some [1, 2, 3]
  code := ⟨.utf8, "Sub é".toList⟩
  locked := some 7

theorem GameData.sample_fields : GameData.sample.Fields :=
  ⟨by decide, by decide, by decide, .some (by decide), by decide, by decide, by decide, .some (by decide), .some (by decide), by decide, by decide, ⟨128, by decide, rfl⟩, .some (by decide), by decide, .some (by decide), .some (by decide), .some (by decide), by decide, by decide, .some (by decide), ⟨[0x53, 0x75, 0x62, 0x20, 0xc3, 0xa9], by decide, by decide, by decide +kernel⟩⟩

end Vpin
