import Verif.Model.Material
import Verif.Model.RenderProbe
/-
Game data, /repo/src/vpx/gamedata.rs. Generated by tools/gen_gamedata.py from the source; each
definition cites what it models.
-/
namespace Vpin


/-- part of `GameData`, /repo/src/vpx/gamedata.rs:318-1041: table bounds and desktop view -/
structure GDView where
  left : F32
  top : F32
  right : F32
  bottom : F32
  camera_layout_mode : Option UInt32
  bg_enable_fss : Option Bool
  is_10_8_0_beta1_to_beta4 : Bool
  bg_view_mode_desktop : Option ViewLayoutMode
  bg_rotation_desktop : F32
  bg_inclination_desktop : F32
  bg_layback_desktop : F32
  bg_fov_desktop : F32
  bg_offset_x_desktop : F32
  bg_offset_y_desktop : F32
  bg_offset_z_desktop : F32
  bg_scale_x_desktop : F32
  bg_scale_y_desktop : F32
  bg_scale_z_desktop : F32
  bg_view_horizontal_offset_desktop : Option F32
  bg_view_vertical_offset_desktop : Option F32
  bg_window_top_x_offset_desktop : Option F32
  bg_window_top_y_offset_desktop : Option F32
  bg_window_top_z_offset_desktop : Option F32
  bg_window_bottom_x_offset_desktop : Option F32
  bg_window_bottom_y_offset_desktop : Option F32
  bg_window_bottom_z_offset_desktop : Option F32
  bg_view_mode_fullscreen : Option ViewLayoutMode
  deriving DecidableEq, Repr

/-- part of `GameData`, /repo/src/vpx/gamedata.rs:318-1041: fullscreen and full single screen views -/
structure GDScreens where
  bg_rotation_fullscreen : F32
  bg_inclination_fullscreen : F32
  bg_layback_fullscreen : F32
  bg_fov_fullscreen : F32
  bg_offset_x_fullscreen : F32
  bg_offset_y_fullscreen : F32
  bg_offset_z_fullscreen : F32
  bg_scale_x_fullscreen : F32
  bg_scale_y_fullscreen : F32
  bg_scale_z_fullscreen : F32
  bg_view_horizontal_offset_fullscreen : Option F32
  bg_view_vertical_offset_fullscreen : Option F32
  bg_window_top_x_offset_fullscreen : Option F32
  bg_window_top_y_offset_fullscreen : Option F32
  bg_window_top_z_offset_fullscreen : Option F32
  bg_window_bottom_x_offset_fullscreen : Option F32
  bg_window_bottom_y_offset_fullscreen : Option F32
  bg_window_bottom_z_offset_fullscreen : Option F32
  bg_view_mode_full_single_screen : Option ViewLayoutMode
  bg_rotation_full_single_screen : Option F32
  bg_inclination_full_single_screen : Option F32
  bg_layback_full_single_screen : Option F32
  bg_fov_full_single_screen : Option F32
  bg_offset_x_full_single_screen : Option F32
  bg_offset_y_full_single_screen : Option F32
  bg_offset_z_full_single_screen : Option F32
  bg_scale_x_full_single_screen : Option F32
  bg_scale_y_full_single_screen : Option F32
  bg_scale_z_full_single_screen : Option F32
  bg_view_horizontal_offset_full_single_screen : Option F32
  bg_view_vertical_offset_full_single_screen : Option F32
  bg_window_top_x_offset_full_single_screen : Option F32
  bg_window_top_y_offset_full_single_screen : Option F32
  bg_window_top_z_offset_full_single_screen : Option F32
  bg_window_bottom_x_offset_full_single_screen : Option F32
  bg_window_bottom_y_offset_full_single_screen : Option F32
  bg_window_bottom_z_offset_full_single_screen : Option F32
  deriving DecidableEq, Repr

/-- part of `GameData`, /repo/src/vpx/gamedata.rs:318-1041: physics and stereo -/
structure GDPhysics where
  override_physics : UInt32
  override_physics_flipper : Option Bool
  gravity : F32
  friction : F32
  elasticity : F32
  elastic_falloff : F32
  scatter : F32
  default_scatter : F32
  nudge_time : F32
  plunger_normalize : Option UInt32
  plunger_filter : Option Bool
  physics_max_loops : UInt32
  render_em_reels : Bool
  render_decals : Bool
  offset_x : F32
  offset_y : F32
  zoom : F32
  angle_tilt_max : F32
  angle_tilt_min : F32
  stereo_max_separation : Option F32
  stereo_zero_parallax_displacement : Option F32
  stereo_offset : Option F32
  overwrite_global_stereo3d : Option Bool
  deriving DecidableEq, Repr

/-- part of `GameData`, /repo/src/vpx/gamedata.rs:318-1041: images, glass and lights -/
structure GDLook where
  image : Str
  backglass_image_full_desktop : Str
  backglass_image_full_fullscreen : Str
  backglass_image_full_single_screen : Option Str
  image_backdrop_night_day : Bool
  image_color_grade : Str
  ball_image : Str
  ball_spherical_mapping : Option Bool
  ball_image_front : Str
  env_image : Option Str
  notes : Option Str
  screen_shot : Str
  display_backdrop : Bool
  glass_top_height : F32
  glass_bottom_height : Option F32
  table_height : Option F32
  playfield_material : Str
  backdrop_color : Color
  global_difficulty : F32
  light_ambient : Color
  light0_emission : Color
  light_height : F32
  light_range : F32
  light_emission_scale : F32
  env_emission_scale : F32
  global_emission_scale : F32
  ao_scale : F32
  ssr_scale : Option F32
  ground_to_lockbar_height : Option F32
  deriving DecidableEq, Repr

/-- part of `GameData`, /repo/src/vpx/gamedata.rs:318-1041: sound levels and rendering -/
structure GDRender where
  table_sound_volume : F32
  table_music_volume : F32
  table_adaptive_vsync : Option Int32
  use_reflection_for_balls : Option Int32
  brst : Option Int32
  playfield_reflection_strength : F32
  use_trail_for_balls : Option Int32
  ball_decal_mode : Bool
  ball_playfield_reflection_strength : Option F32
  default_bulb_intensity_scale_on_ball : Option F32
  ball_trail_strength : Option UInt32
  user_detail_level : Option UInt32
  overwrite_global_detail_level : Option Bool
  overwrite_global_day_night : Option Bool
  show_grid : Bool
  reflect_elements_on_playfield : Option Bool
  use_aal : Option Int32
  use_fxaa : Option Int32
  use_ao : Option Int32
  use_ssr : Option Int32
  tone_mapper : Option ToneMapper
  exposure : Option F32
  bloom_strength : F32
  deriving DecidableEq, Repr

/-- part of `GameData`, /repo/src/vpx/gamedata.rs:318-1041: materials, counts, name and script -/
structure GDContent where
  materials_size : UInt32
  materials_old : List SaveMaterial
  materials_physics_old : Option (List SavePhysicsMaterial)
  materials : Option (List Material)
  render_probes : Option (List RenderProbeWithGarbage)
  gameitems_size : UInt32
  sounds_size : UInt32
  images_size : UInt32
  fonts_size : UInt32
  collections_size : UInt32
  name : Str
  custom_colors : List Color
  protection_data : Option Bytes
  code : StringWithEncoding
  locked : Option UInt32
  deriving DecidableEq, Repr

/-- `struct GameData`, /repo/src/vpx/gamedata.rs:318-1041. The fields are grouped in the order in which they are
written; the fixed-size array of custom colours is a list. -/
structure GameData extends GDView, GDScreens, GDPhysics, GDLook, GDRender, GDContent
  deriving DecidableEq, Repr

/-- `GameData::default`, /repo/src/vpx/gamedata.rs:1568-1727 (floating point values as bit patterns) -/
def GameData.default : GameData where
  left := 0
  top := 0
  right := 0x446e0000
  bottom := 0x45072000
  camera_layout_mode := none
  bg_enable_fss := none
  is_10_8_0_beta1_to_beta4 := false
  bg_view_mode_desktop := none
  bg_rotation_desktop := 0
  bg_inclination_desktop := 0
  bg_layback_desktop := 0
  bg_fov_desktop := 0x42340000
  bg_offset_x_desktop := 0
  bg_offset_y_desktop := 0x41f00000
  bg_offset_z_desktop := 0xc3480000
  bg_scale_x_desktop := 0x3f800000
  bg_scale_y_desktop := 0x3f800000
  bg_scale_z_desktop := 0x3f800000
  bg_view_horizontal_offset_desktop := none
  bg_view_vertical_offset_desktop := none
  bg_window_top_x_offset_desktop := none
  bg_window_top_y_offset_desktop := none
  bg_window_top_z_offset_desktop := none
  bg_window_bottom_x_offset_desktop := none
  bg_window_bottom_y_offset_desktop := none
  bg_window_bottom_z_offset_desktop := none
  bg_view_mode_fullscreen := none
  bg_rotation_fullscreen := 0
  bg_inclination_fullscreen := 0
  bg_layback_fullscreen := 0
  bg_fov_fullscreen := 0x42340000
  bg_offset_x_fullscreen := 0x42dc0000
  bg_offset_y_fullscreen := 0xc2ac0000
  bg_offset_z_fullscreen := 0x43c80000
  bg_scale_x_fullscreen := 0x3fa66666
  bg_scale_y_fullscreen := 0x3fb47ae1
  bg_scale_z_fullscreen := 0x3f800000
  bg_view_horizontal_offset_fullscreen := none
  bg_view_vertical_offset_fullscreen := none
  bg_window_top_x_offset_fullscreen := none
  bg_window_top_y_offset_fullscreen := none
  bg_window_top_z_offset_fullscreen := none
  bg_window_bottom_x_offset_fullscreen := none
  bg_window_bottom_y_offset_fullscreen := none
  bg_window_bottom_z_offset_fullscreen := none
  bg_view_mode_full_single_screen := none
  bg_rotation_full_single_screen := none
  bg_inclination_full_single_screen := none
  bg_layback_full_single_screen := none
  bg_fov_full_single_screen := none
  bg_offset_x_full_single_screen := none
  bg_offset_y_full_single_screen := none
  bg_offset_z_full_single_screen := none
  bg_scale_x_full_single_screen := none
  bg_scale_y_full_single_screen := none
  bg_scale_z_full_single_screen := none
  bg_view_horizontal_offset_full_single_screen := none
  bg_view_vertical_offset_full_single_screen := none
  bg_window_top_x_offset_full_single_screen := none
  bg_window_top_y_offset_full_single_screen := none
  bg_window_top_z_offset_full_single_screen := none
  bg_window_bottom_x_offset_full_single_screen := none
  bg_window_bottom_y_offset_full_single_screen := none
  bg_window_bottom_z_offset_full_single_screen := none
  override_physics := 0
  override_physics_flipper := none
  gravity := 0x3fe1a97e
  friction := 0x3d99999a
  elasticity := 0x3e800000
  elastic_falloff := 0
  scatter := 0
  default_scatter := 0
  nudge_time := 0x40a00000
  plunger_normalize := none
  plunger_filter := none
  physics_max_loops := 0
  render_em_reels := false
  render_decals := false
  offset_x := 0x43ee0000
  offset_y := 0x44872000
  zoom := 0x3f000000
  angle_tilt_max := 0x40c00000
  angle_tilt_min := 0x40c00000
  stereo_max_separation := none
  stereo_zero_parallax_displacement := none
  stereo_offset := none
  overwrite_global_stereo3d := none
  image := []
  backglass_image_full_desktop := []
  backglass_image_full_fullscreen := []
  backglass_image_full_single_screen := none
  image_backdrop_night_day := false
  image_color_grade := []
  ball_image := []
  ball_spherical_mapping := none
  ball_image_front := []
  env_image := none
  notes := none
  screen_shot := []
  display_backdrop := false
  glass_top_height := 0x43c80000
  glass_bottom_height := none
  table_height := none
  playfield_material := []
  backdrop_color := Color.fromRgb 0x626E8E
  global_difficulty := 0x3e4ccccd
  light_ambient := Color.rgb 25 25 25
  light0_emission := Color.rgb 102 102 102
  light_height := 0x459c4000
  light_range := 0x4a742400
  light_emission_scale := 0x4a742400
  env_emission_scale := 0x40000000
  global_emission_scale := 0x3f051eb8
  ao_scale := 0x3fe00000
  ssr_scale := none
  ground_to_lockbar_height := none
  table_sound_volume := 0x3f800000
  table_music_volume := 0x3f800000
  table_adaptive_vsync := none
  use_reflection_for_balls := none
  brst := none
  playfield_reflection_strength := 0x3f800000
  use_trail_for_balls := none
  ball_decal_mode := false
  ball_playfield_reflection_strength := none
  default_bulb_intensity_scale_on_ball := none
  ball_trail_strength := none
  user_detail_level := none
  overwrite_global_detail_level := none
  overwrite_global_day_night := none
  show_grid := true
  reflect_elements_on_playfield := none
  use_aal := none
  use_fxaa := none
  use_ao := none
  use_ssr := none
  tone_mapper := none
  exposure := none
  bloom_strength := 0x3fe66666
  materials_size := 0
  materials_old := []
  materials_physics_old := none
  materials := none
  render_probes := none
  gameitems_size := 0
  sounds_size := 0
  images_size := 0
  fonts_size := 0
  collections_size := 0
  name := "Table1".toList
  custom_colors := List.replicate 16 (Color.rgb 0 0 0)
  protection_data := none
  code := ⟨.utf8, []⟩
  locked := none

/-- the local variables of the reading loop: the game data and the tag of the previous record,
/repo/src/vpx/gamedata.rs:2087-2323 -/
structure GDState where
  gd : GameData
  prev : Tag
  deriving DecidableEq, Repr

/-- an arm that sets a field; `previous_tag` is set behind the match (used in /repo/src/vpx/gamedata.rs:2090) -/
def gfld {α : Type} (t : Tag) (get : R α) (set : α → GameData → GameData) : Tag × (GDState → R GDState) :=
  (t, fld get fun v st => ⟨set v st.gd, t⟩)

/-- the same for a getter that looks at the game data read so far (used in /repo/src/vpx/gamedata.rs:2090) -/
def gfldS {α : Type} (t : Tag) (get : GameData → R α) (set : α → GameData → GameData) :
    Tag × (GDState → R GDState) :=
  (t, fun st => fld (get st.gd) (fun v st => ⟨set v st.gd, t⟩) st)

/-- `read_colors`, /repo/src/vpx/gamedata.rs:2325-2336 -/
def readColors (data : Bytes) : Res (List Color) :=
  match bmList bmU32 16 data with
  | .error e => .error e
  | .ok (l, _) => .ok (l.map Color.fromWinColor)

/-- `write_colors`, /repo/src/vpx/gamedata.rs:2338-2344 -/
def writeColors (colors : List Color) : Bytes := colors.flatMap fun c => le32 c.toWinColor

/-- the CCUS arm, /repo/src/vpx/gamedata.rs:2303-2307 -/
def getColors16 : R (List Color) := do
  let d ← getRecordData
  R.ofRes (readColors d)

/-- the loops of the MATE and PHMA arms, /repo/src/vpx/gamedata.rs:2239-2260; what follows the last
entry is ignored -/
def getFixedList {α : Type} (get : BM α) (n : UInt32) : R (List α) := do
  let d ← getRecordData
  R.ofRes (match bmList get n.toNat d with
    | .error e => .error e
    | .ok (l, _) => .ok l)

/-- the MATR arm, /repo/src/vpx/gamedata.rs:2262-2270 -/
def getMaterialRecord : R Material := do
  let d ← getRecordData
  R.ofRes (Material.read d)

/-- the RPRB arm, /repo/src/vpx/gamedata.rs:2271-2279 -/
def getProbeRecord : R RenderProbeWithGarbage := do
  let d ← getRecordData
  R.ofRes (RenderProbeWithGarbage.read d)

/-- the EFSS arm, /repo/src/vpx/gamedata.rs:2115-2120 -/
def efssArm (version : UInt32) : GDState → R GDState := fun st =>
  fld getBool (fun v st => ⟨{ st.gd with
    is_10_8_0_beta1_to_beta4 :=
      if version = 1080 ∧ st.prev ≠ tag!"BOTM" then true else st.gd.is_10_8_0_beta1_to_beta4,
    bg_enable_fss := some v }, tag!"EFSS"⟩) st

/-- the default arm, /repo/src/vpx/gamedata.rs:2315-2318 -/
def gameDataOther : GDState → R GDState := fun st => do
  let t ← getTag
  let _ ← getRecordData
  pure ⟨st.gd, t⟩

/-- match arms of `read_all_gamedata_records`, /repo/src/vpx/gamedata.rs:2087-2323: table bounds and desktop view -/
def GameData.armsA (version : UInt32) : Handlers GDState :=
  [gfld tag!"LEFT" getF32 fun v s => { s with left := v },
   gfld tag!"TOPX" getF32 fun v s => { s with top := v },
   gfld tag!"RGHT" getF32 fun v s => { s with right := v },
   gfld tag!"BOTM" getF32 fun v s => { s with bottom := v },
   gfld tag!"CLMO" getU32 fun v s => { s with camera_layout_mode := some v },
   gfld tag!"VSM0" (getEnum ViewLayoutMode.ofU32) fun v s => { s with bg_view_mode_desktop := some v },
   gfld tag!"ROTA" getF32 fun v s => { s with bg_rotation_desktop := v },
   gfld tag!"INCL" getF32 fun v s => { s with bg_inclination_desktop := v },
   gfld tag!"LAYB" getF32 fun v s => { s with bg_layback_desktop := v },
   gfld tag!"FOVX" getF32 fun v s => { s with bg_fov_desktop := v },
   gfld tag!"XLTX" getF32 fun v s => { s with bg_offset_x_desktop := v },
   gfld tag!"XLTY" getF32 fun v s => { s with bg_offset_y_desktop := v },
   gfld tag!"XLTZ" getF32 fun v s => { s with bg_offset_z_desktop := v },
   gfld tag!"SCLX" getF32 fun v s => { s with bg_scale_x_desktop := v },
   gfld tag!"SCLY" getF32 fun v s => { s with bg_scale_y_desktop := v },
   gfld tag!"SCLZ" getF32 fun v s => { s with bg_scale_z_desktop := v },
   (tag!"EFSS", efssArm version),
   gfld tag!"HOF0" getF32 fun v s => { s with bg_view_horizontal_offset_desktop := some v },
   gfld tag!"VOF0" getF32 fun v s => { s with bg_view_vertical_offset_desktop := some v },
   gfld tag!"WTX0" getF32 fun v s => { s with bg_window_top_x_offset_desktop := some v },
   gfld tag!"WTY0" getF32 fun v s => { s with bg_window_top_y_offset_desktop := some v },
   gfld tag!"WTZ0" getF32 fun v s => { s with bg_window_top_z_offset_desktop := some v },
   gfld tag!"WBX0" getF32 fun v s => { s with bg_window_bottom_x_offset_desktop := some v },
   gfld tag!"WBY0" getF32 fun v s => { s with bg_window_bottom_y_offset_desktop := some v },
   gfld tag!"WBZ0" getF32 fun v s => { s with bg_window_bottom_z_offset_desktop := some v },
   gfld tag!"VSM1" (getEnum ViewLayoutMode.ofU32) fun v s => { s with bg_view_mode_fullscreen := some v }]

/-- match arms of `read_all_gamedata_records`, /repo/src/vpx/gamedata.rs:2087-2323: fullscreen and full single screen views -/
def GameData.armsB : Handlers GDState :=
  [gfld tag!"ROTF" getF32 fun v s => { s with bg_rotation_fullscreen := v },
   gfld tag!"INCF" getF32 fun v s => { s with bg_inclination_fullscreen := v },
   gfld tag!"LAYF" getF32 fun v s => { s with bg_layback_fullscreen := v },
   gfld tag!"FOVF" getF32 fun v s => { s with bg_fov_fullscreen := v },
   gfld tag!"XLFX" getF32 fun v s => { s with bg_offset_x_fullscreen := v },
   gfld tag!"XLFY" getF32 fun v s => { s with bg_offset_y_fullscreen := v },
   gfld tag!"XLFZ" getF32 fun v s => { s with bg_offset_z_fullscreen := v },
   gfld tag!"SCFX" getF32 fun v s => { s with bg_scale_x_fullscreen := v },
   gfld tag!"SCFY" getF32 fun v s => { s with bg_scale_y_fullscreen := v },
   gfld tag!"SCFZ" getF32 fun v s => { s with bg_scale_z_fullscreen := v },
   gfld tag!"HOF1" getF32 fun v s => { s with bg_view_horizontal_offset_fullscreen := some v },
   gfld tag!"VOF1" getF32 fun v s => { s with bg_view_vertical_offset_fullscreen := some v },
   gfld tag!"WTX1" getF32 fun v s => { s with bg_window_top_x_offset_fullscreen := some v },
   gfld tag!"WTY1" getF32 fun v s => { s with bg_window_top_y_offset_fullscreen := some v },
   gfld tag!"WTZ1" getF32 fun v s => { s with bg_window_top_z_offset_fullscreen := some v },
   gfld tag!"WBX1" getF32 fun v s => { s with bg_window_bottom_x_offset_fullscreen := some v },
   gfld tag!"WBY1" getF32 fun v s => { s with bg_window_bottom_y_offset_fullscreen := some v },
   gfld tag!"WBZ1" getF32 fun v s => { s with bg_window_bottom_z_offset_fullscreen := some v },
   gfld tag!"VSM2" (getEnum ViewLayoutMode.ofU32) fun v s => { s with bg_view_mode_full_single_screen := some v },
   gfld tag!"ROFS" getF32 fun v s => { s with bg_rotation_full_single_screen := some v },
   gfld tag!"INFS" getF32 fun v s => { s with bg_inclination_full_single_screen := some v },
   gfld tag!"LAFS" getF32 fun v s => { s with bg_layback_full_single_screen := some v },
   gfld tag!"FOFS" getF32 fun v s => { s with bg_fov_full_single_screen := some v },
   gfld tag!"XLXS" getF32 fun v s => { s with bg_offset_x_full_single_screen := some v },
   gfld tag!"XLYS" getF32 fun v s => { s with bg_offset_y_full_single_screen := some v },
   gfld tag!"XLZS" getF32 fun v s => { s with bg_offset_z_full_single_screen := some v },
   gfld tag!"SCXS" getF32 fun v s => { s with bg_scale_x_full_single_screen := some v },
   gfld tag!"SCYS" getF32 fun v s => { s with bg_scale_y_full_single_screen := some v },
   gfld tag!"SCZS" getF32 fun v s => { s with bg_scale_z_full_single_screen := some v },
   gfld tag!"HOF2" getF32 fun v s => { s with bg_view_horizontal_offset_full_single_screen := some v },
   gfld tag!"VOF2" getF32 fun v s => { s with bg_view_vertical_offset_full_single_screen := some v },
   gfld tag!"WTX2" getF32 fun v s => { s with bg_window_top_x_offset_full_single_screen := some v },
   gfld tag!"WTY2" getF32 fun v s => { s with bg_window_top_y_offset_full_single_screen := some v },
   gfld tag!"WTZ2" getF32 fun v s => { s with bg_window_top_z_offset_full_single_screen := some v },
   gfld tag!"WBX2" getF32 fun v s => { s with bg_window_bottom_x_offset_full_single_screen := some v },
   gfld tag!"WBY2" getF32 fun v s => { s with bg_window_bottom_y_offset_full_single_screen := some v },
   gfld tag!"WBZ2" getF32 fun v s => { s with bg_window_bottom_z_offset_full_single_screen := some v }]

/-- match arms of `read_all_gamedata_records`, /repo/src/vpx/gamedata.rs:2087-2323: physics and stereo -/
def GameData.armsC : Handlers GDState :=
  [gfld tag!"ORRP" getU32 fun v s => { s with override_physics := v },
   gfld tag!"ORPF" getBool fun v s => { s with override_physics_flipper := some v },
   gfld tag!"GAVT" getF32 fun v s => { s with gravity := v },
   gfld tag!"FRCT" getF32 fun v s => { s with friction := v },
   gfld tag!"ELAS" getF32 fun v s => { s with elasticity := v },
   gfld tag!"ELFA" getF32 fun v s => { s with elastic_falloff := v },
   gfld tag!"PFSC" getF32 fun v s => { s with scatter := v },
   gfld tag!"SCAT" getF32 fun v s => { s with default_scatter := v },
   gfld tag!"NDGT" getF32 fun v s => { s with nudge_time := v },
   gfld tag!"MPGC" getU32 fun v s => { s with plunger_normalize := some v },
   gfld tag!"MPDF" getBool fun v s => { s with plunger_filter := some v },
   gfld tag!"PHML" getU32 fun v s => { s with physics_max_loops := v },
   gfld tag!"REEL" getBool fun v s => { s with render_em_reels := v },
   gfld tag!"DECL" getBool fun v s => { s with render_decals := v },
   gfld tag!"OFFX" getF32 fun v s => { s with offset_x := v },
   gfld tag!"OFFY" getF32 fun v s => { s with offset_y := v },
   gfld tag!"ZOOM" getF32 fun v s => { s with zoom := v },
   gfld tag!"SLPX" getF32 fun v s => { s with angle_tilt_max := v },
   gfld tag!"SLOP" getF32 fun v s => { s with angle_tilt_min := v },
   gfld tag!"MAXS" getF32 fun v s => { s with stereo_max_separation := some v },
   gfld tag!"ZPD" getF32 fun v s => { s with stereo_zero_parallax_displacement := some v },
   gfld tag!"STO" getF32 fun v s => { s with stereo_offset := some v },
   gfld tag!"OGST" getBool fun v s => { s with overwrite_global_stereo3d := some v }]

/-- match arms of `read_all_gamedata_records`, /repo/src/vpx/gamedata.rs:2087-2323: images, glass and lights -/
def GameData.armsD : Handlers GDState :=
  [gfld tag!"IMAG" getString fun v s => { s with image := v },
   gfld tag!"BIMG" getString fun v s => { s with backglass_image_full_desktop := v },
   gfld tag!"BIMF" getString fun v s => { s with backglass_image_full_fullscreen := v },
   gfld tag!"BIMS" getString fun v s => { s with backglass_image_full_single_screen := some v },
   gfld tag!"BIMN" getBool fun v s => { s with image_backdrop_night_day := v },
   gfld tag!"IMCG" getString fun v s => { s with image_color_grade := v },
   gfld tag!"BLIM" getString fun v s => { s with ball_image := v },
   gfld tag!"BLSM" getBool fun v s => { s with ball_spherical_mapping := some v },
   gfld tag!"BLIF" getString fun v s => { s with ball_image_front := v },
   gfld tag!"EIMG" getString fun v s => { s with env_image := some v },
   gfld tag!"NOTX" getString fun v s => { s with notes := some v },
   gfld tag!"SSHT" getString fun v s => { s with screen_shot := v },
   gfld tag!"FBCK" getBool fun v s => { s with display_backdrop := v },
   gfld tag!"GLAS" getF32 fun v s => { s with glass_top_height := v },
   gfld tag!"GLAB" getF32 fun v s => { s with glass_bottom_height := some v },
   gfld tag!"TBLH" getF32 fun v s => { s with table_height := some v },
   gfld tag!"PLMA" getString fun v s => { s with playfield_material := v },
   gfld tag!"BCLR" getColor fun v s => { s with backdrop_color := v },
   gfld tag!"TDFT" getF32 fun v s => { s with global_difficulty := v },
   gfld tag!"LZAM" getColor fun v s => { s with light_ambient := v },
   gfld tag!"LZDI" getColor fun v s => { s with light0_emission := v },
   gfld tag!"LZHI" getF32 fun v s => { s with light_height := v },
   gfld tag!"LZRA" getF32 fun v s => { s with light_range := v },
   gfld tag!"LIES" getF32 fun v s => { s with light_emission_scale := v },
   gfld tag!"ENES" getF32 fun v s => { s with env_emission_scale := v },
   gfld tag!"GLES" getF32 fun v s => { s with global_emission_scale := v },
   gfld tag!"AOSC" getF32 fun v s => { s with ao_scale := v },
   gfld tag!"SSSC" getF32 fun v s => { s with ssr_scale := some v },
   gfld tag!"CLBH" getF32 fun v s => { s with ground_to_lockbar_height := some v }]

/-- match arms of `read_all_gamedata_records`, /repo/src/vpx/gamedata.rs:2087-2323: sound levels and rendering -/
def GameData.armsE : Handlers GDState :=
  [gfld tag!"SVOL" getF32 fun v s => { s with table_sound_volume := v },
   gfld tag!"MVOL" getF32 fun v s => { s with table_music_volume := v },
   gfld tag!"AVSY" getI32 fun v s => { s with table_adaptive_vsync := some v },
   gfld tag!"BREF" getI32 fun v s => { s with use_reflection_for_balls := some v },
   gfld tag!"BRST" getI32 fun v s => { s with brst := some v },
   gfld tag!"PLST" getQuant8 fun v s => { s with playfield_reflection_strength := v },
   gfld tag!"BTRA" getI32 fun v s => { s with use_trail_for_balls := some v },
   gfld tag!"BDMO" getBool fun v s => { s with ball_decal_mode := v },
   gfld tag!"BPRS" getF32 fun v s => { s with ball_playfield_reflection_strength := some v },
   gfld tag!"DBIS" getF32 fun v s => { s with default_bulb_intensity_scale_on_ball := some v },
   gfld tag!"BTST" getU32 fun v s => { s with ball_trail_strength := some v },
   gfld tag!"ARAC" getU32 fun v s => { s with user_detail_level := some v },
   gfld tag!"OGAC" getBool fun v s => { s with overwrite_global_detail_level := some v },
   gfld tag!"OGDN" getBool fun v s => { s with overwrite_global_day_night := some v },
   gfld tag!"GDAC" getBool fun v s => { s with show_grid := v },
   gfld tag!"REOP" getBool fun v s => { s with reflect_elements_on_playfield := some v },
   gfld tag!"UAAL" getI32 fun v s => { s with use_aal := some v },
   gfld tag!"UFXA" getI32 fun v s => { s with use_fxaa := some v },
   gfld tag!"UAOC" getI32 fun v s => { s with use_ao := some v },
   gfld tag!"USSR" getI32 fun v s => { s with use_ssr := some v },
   gfld tag!"TMAP" (getEnum ToneMapper.ofU32) fun v s => { s with tone_mapper := some v },
   gfld tag!"EXPO" getF32 fun v s => { s with exposure := some v },
   gfld tag!"BLST" getF32 fun v s => { s with bloom_strength := v }]

/-- match arms of `read_all_gamedata_records`, /repo/src/vpx/gamedata.rs:2087-2323: materials, counts, name and script -/
def GameData.armsF : Handlers GDState :=
  [gfld tag!"MASI" getU32 fun v s => { s with materials_size := v },
   gfldS tag!"MATE" (fun s => getFixedList bmSaveMaterial s.materials_size) fun v s => { s with materials_old := v },
   gfldS tag!"PHMA" (fun s => getFixedList bmSavePhysicsMaterial s.materials_size) fun v s => { s with materials_physics_old := some v },
   gfld tag!"MATR" getMaterialRecord fun v s => { s with materials := some (s.materials.getD [] ++ [v]) },
   gfld tag!"RPRB" getProbeRecord fun v s => { s with render_probes := some (s.render_probes.getD [] ++ [v]) },
   gfld tag!"SEDT" getU32 fun v s => { s with gameitems_size := v },
   gfld tag!"SSND" getU32 fun v s => { s with sounds_size := v },
   gfld tag!"SIMG" getU32 fun v s => { s with images_size := v },
   gfld tag!"SFNT" getU32 fun v s => { s with fonts_size := v },
   gfld tag!"SCOL" getU32 fun v s => { s with collections_size := v },
   gfld tag!"NAME" getWide fun v s => { s with name := v },
   gfld tag!"CCUS" getColors16 fun v s => { s with custom_colors := v },
   gfld tag!"SECB" getRecordData fun v s => { s with protection_data := some v },
   gfld tag!"CODE" getCode fun v s => { s with code := v },
   gfld tag!"TLCK" getU32 fun v s => { s with locked := some v }]

/-- the whole match, /repo/src/vpx/gamedata.rs:2087-2323 -/
def GameData.arms (version : UInt32) : Handlers GDState :=
  GameData.armsA version ++ (GameData.armsB ++ (GameData.armsC ++ (GameData.armsD ++ (GameData.armsE ++
  (GameData.armsF ++ [(anyTag, gameDataOther)])))))

/-- `read_all_gamedata_records`, /repo/src/vpx/gamedata.rs:2087-2323 -/
def GameData.read (version : UInt32) (data : Bytes) : Res GameData :=
  match readStruct (GameData.arms version) ⟨GameData.default, 0⟩ data with
  | .error e => .error e
  | .ok st => .ok st.gd

/-- records of the modern materials, /repo/src/vpx/gamedata.rs:2042-2048 -/
def materialOps (l : List Material) : List WOp := l.map fun m => .sizedR tag!"MATR" m.write

/-- records of the render probes, /repo/src/vpx/gamedata.rs:2050-2056 -/
def probeOps (l : List RenderProbeWithGarbage) : List WOp := l.map fun p => .sizedR tag!"RPRB" p.write

/-- the EFSS record in the place of 10.8.0 and later, /repo/src/vpx/gamedata.rs:1746-1751 -/
def GameData.efssEarly (version : UInt32) (s : GameData) : List WOp :=
  if version ≥ 1080 ∧ ¬ s.is_10_8_0_beta1_to_beta4 then opt (wBool tag!"EFSS") s.bg_enable_fss else []

/-- the EFSS record in the place of versions before 10.8.0 and of its first betas,
/repo/src/vpx/gamedata.rs:1795-1799 -/
def GameData.efssLate (version : UInt32) (s : GameData) : List WOp :=
  if version < 1080 ∨ s.is_10_8_0_beta1_to_beta4 then opt (wBool tag!"EFSS") s.bg_enable_fss else []

/-- calls of `write_all_gamedata_records` from LEFT to CLMO, /repo/src/vpx/gamedata.rs:1735-2085 -/
def GameData.opsA1 (s : GameData) : List WOp := List.flatten [
  [wF32 tag!"LEFT" s.left],
  [wF32 tag!"TOPX" s.top],
  [wF32 tag!"RGHT" s.right],
  [wF32 tag!"BOTM" s.bottom],
  opt (wU32 tag!"CLMO") s.camera_layout_mode]

/-- calls of `write_all_gamedata_records` from VSM0 to VSM1, /repo/src/vpx/gamedata.rs:1735-2085 -/
def GameData.opsA2 (s : GameData) : List WOp := List.flatten [
  opt (wEnum ViewLayoutMode.toU32 tag!"VSM0") s.bg_view_mode_desktop,
  [wF32 tag!"ROTA" s.bg_rotation_desktop],
  [wF32 tag!"INCL" s.bg_inclination_desktop],
  [wF32 tag!"LAYB" s.bg_layback_desktop],
  [wF32 tag!"FOVX" s.bg_fov_desktop],
  [wF32 tag!"XLTX" s.bg_offset_x_desktop],
  [wF32 tag!"XLTY" s.bg_offset_y_desktop],
  [wF32 tag!"XLTZ" s.bg_offset_z_desktop],
  [wF32 tag!"SCLX" s.bg_scale_x_desktop],
  [wF32 tag!"SCLY" s.bg_scale_y_desktop],
  [wF32 tag!"SCLZ" s.bg_scale_z_desktop],
  opt (wF32 tag!"HOF0") s.bg_view_horizontal_offset_desktop,
  opt (wF32 tag!"VOF0") s.bg_view_vertical_offset_desktop,
  opt (wF32 tag!"WTX0") s.bg_window_top_x_offset_desktop,
  opt (wF32 tag!"WTY0") s.bg_window_top_y_offset_desktop,
  opt (wF32 tag!"WTZ0") s.bg_window_top_z_offset_desktop,
  opt (wF32 tag!"WBX0") s.bg_window_bottom_x_offset_desktop,
  opt (wF32 tag!"WBY0") s.bg_window_bottom_y_offset_desktop,
  opt (wF32 tag!"WBZ0") s.bg_window_bottom_z_offset_desktop,
  opt (wEnum ViewLayoutMode.toU32 tag!"VSM1") s.bg_view_mode_fullscreen]

/-- calls of `write_all_gamedata_records` from ROTF to WBZ2, /repo/src/vpx/gamedata.rs:1735-2085 -/
def GameData.opsB (s : GameData) : List WOp := List.flatten [
  [wF32 tag!"ROTF" s.bg_rotation_fullscreen],
  [wF32 tag!"INCF" s.bg_inclination_fullscreen],
  [wF32 tag!"LAYF" s.bg_layback_fullscreen],
  [wF32 tag!"FOVF" s.bg_fov_fullscreen],
  [wF32 tag!"XLFX" s.bg_offset_x_fullscreen],
  [wF32 tag!"XLFY" s.bg_offset_y_fullscreen],
  [wF32 tag!"XLFZ" s.bg_offset_z_fullscreen],
  [wF32 tag!"SCFX" s.bg_scale_x_fullscreen],
  [wF32 tag!"SCFY" s.bg_scale_y_fullscreen],
  [wF32 tag!"SCFZ" s.bg_scale_z_fullscreen],
  opt (wF32 tag!"HOF1") s.bg_view_horizontal_offset_fullscreen,
  opt (wF32 tag!"VOF1") s.bg_view_vertical_offset_fullscreen,
  opt (wF32 tag!"WTX1") s.bg_window_top_x_offset_fullscreen,
  opt (wF32 tag!"WTY1") s.bg_window_top_y_offset_fullscreen,
  opt (wF32 tag!"WTZ1") s.bg_window_top_z_offset_fullscreen,
  opt (wF32 tag!"WBX1") s.bg_window_bottom_x_offset_fullscreen,
  opt (wF32 tag!"WBY1") s.bg_window_bottom_y_offset_fullscreen,
  opt (wF32 tag!"WBZ1") s.bg_window_bottom_z_offset_fullscreen,
  opt (wEnum ViewLayoutMode.toU32 tag!"VSM2") s.bg_view_mode_full_single_screen,
  opt (wF32 tag!"ROFS") s.bg_rotation_full_single_screen,
  opt (wF32 tag!"INFS") s.bg_inclination_full_single_screen,
  opt (wF32 tag!"LAFS") s.bg_layback_full_single_screen,
  opt (wF32 tag!"FOFS") s.bg_fov_full_single_screen,
  opt (wF32 tag!"XLXS") s.bg_offset_x_full_single_screen,
  opt (wF32 tag!"XLYS") s.bg_offset_y_full_single_screen,
  opt (wF32 tag!"XLZS") s.bg_offset_z_full_single_screen,
  opt (wF32 tag!"SCXS") s.bg_scale_x_full_single_screen,
  opt (wF32 tag!"SCYS") s.bg_scale_y_full_single_screen,
  opt (wF32 tag!"SCZS") s.bg_scale_z_full_single_screen,
  opt (wF32 tag!"HOF2") s.bg_view_horizontal_offset_full_single_screen,
  opt (wF32 tag!"VOF2") s.bg_view_vertical_offset_full_single_screen,
  opt (wF32 tag!"WTX2") s.bg_window_top_x_offset_full_single_screen,
  opt (wF32 tag!"WTY2") s.bg_window_top_y_offset_full_single_screen,
  opt (wF32 tag!"WTZ2") s.bg_window_top_z_offset_full_single_screen,
  opt (wF32 tag!"WBX2") s.bg_window_bottom_x_offset_full_single_screen,
  opt (wF32 tag!"WBY2") s.bg_window_bottom_y_offset_full_single_screen,
  opt (wF32 tag!"WBZ2") s.bg_window_bottom_z_offset_full_single_screen]

/-- calls of `write_all_gamedata_records` from ORRP to OGST, /repo/src/vpx/gamedata.rs:1735-2085 -/
def GameData.opsC (s : GameData) : List WOp := List.flatten [
  [wU32 tag!"ORRP" s.override_physics],
  opt (wBool tag!"ORPF") s.override_physics_flipper,
  [wF32 tag!"GAVT" s.gravity],
  [wF32 tag!"FRCT" s.friction],
  [wF32 tag!"ELAS" s.elasticity],
  [wF32 tag!"ELFA" s.elastic_falloff],
  [wF32 tag!"PFSC" s.scatter],
  [wF32 tag!"SCAT" s.default_scatter],
  [wF32 tag!"NDGT" s.nudge_time],
  opt (wU32 tag!"MPGC") s.plunger_normalize,
  opt (wBool tag!"MPDF") s.plunger_filter,
  [wU32 tag!"PHML" s.physics_max_loops],
  [wBool tag!"REEL" s.render_em_reels],
  [wBool tag!"DECL" s.render_decals],
  [wF32 tag!"OFFX" s.offset_x],
  [wF32 tag!"OFFY" s.offset_y],
  [wF32 tag!"ZOOM" s.zoom],
  [wF32 tag!"SLPX" s.angle_tilt_max],
  [wF32 tag!"SLOP" s.angle_tilt_min],
  opt (wF32 tag!"MAXS") s.stereo_max_separation,
  opt (wF32 tag!"ZPD") s.stereo_zero_parallax_displacement,
  opt (wF32 tag!"STO") s.stereo_offset,
  opt (wBool tag!"OGST") s.overwrite_global_stereo3d]

/-- calls of `write_all_gamedata_records` from IMAG to CLBH, /repo/src/vpx/gamedata.rs:1735-2085 -/
def GameData.opsD (s : GameData) : List WOp := List.flatten [
  [wString tag!"IMAG" s.image],
  [wString tag!"BIMG" s.backglass_image_full_desktop],
  [wString tag!"BIMF" s.backglass_image_full_fullscreen],
  opt (wString tag!"BIMS") s.backglass_image_full_single_screen,
  [wBool tag!"BIMN" s.image_backdrop_night_day],
  [wString tag!"IMCG" s.image_color_grade],
  [wString tag!"BLIM" s.ball_image],
  opt (wBool tag!"BLSM") s.ball_spherical_mapping,
  [wString tag!"BLIF" s.ball_image_front],
  opt (wString tag!"EIMG") s.env_image,
  opt (wString tag!"NOTX") s.notes,
  [wString tag!"SSHT" s.screen_shot],
  [wBool tag!"FBCK" s.display_backdrop],
  [wF32 tag!"GLAS" s.glass_top_height],
  opt (wF32 tag!"GLAB") s.glass_bottom_height,
  opt (wF32 tag!"TBLH") s.table_height,
  [wString tag!"PLMA" s.playfield_material],
  [wColor tag!"BCLR" s.backdrop_color],
  [wF32 tag!"TDFT" s.global_difficulty],
  [wColor tag!"LZAM" s.light_ambient],
  [wColor tag!"LZDI" s.light0_emission],
  [wF32 tag!"LZHI" s.light_height],
  [wF32 tag!"LZRA" s.light_range],
  [wF32 tag!"LIES" s.light_emission_scale],
  [wF32 tag!"ENES" s.env_emission_scale],
  [wF32 tag!"GLES" s.global_emission_scale],
  [wF32 tag!"AOSC" s.ao_scale],
  opt (wF32 tag!"SSSC") s.ssr_scale,
  opt (wF32 tag!"CLBH") s.ground_to_lockbar_height]

/-- calls of `write_all_gamedata_records` from SVOL to BLST, /repo/src/vpx/gamedata.rs:1735-2085 -/
def GameData.opsE (s : GameData) : List WOp := List.flatten [
  [wF32 tag!"SVOL" s.table_sound_volume],
  [wF32 tag!"MVOL" s.table_music_volume],
  opt (wI32 tag!"AVSY") s.table_adaptive_vsync,
  opt (wI32 tag!"BREF") s.use_reflection_for_balls,
  opt (wI32 tag!"BRST") s.brst,
  [wQuant8 tag!"PLST" s.playfield_reflection_strength],
  opt (wI32 tag!"BTRA") s.use_trail_for_balls,
  [wBool tag!"BDMO" s.ball_decal_mode],
  opt (wF32 tag!"BPRS") s.ball_playfield_reflection_strength,
  opt (wF32 tag!"DBIS") s.default_bulb_intensity_scale_on_ball,
  opt (wU32 tag!"BTST") s.ball_trail_strength,
  opt (wU32 tag!"ARAC") s.user_detail_level,
  opt (wBool tag!"OGAC") s.overwrite_global_detail_level,
  opt (wBool tag!"OGDN") s.overwrite_global_day_night,
  [wBool tag!"GDAC" s.show_grid],
  opt (wBool tag!"REOP") s.reflect_elements_on_playfield,
  opt (wI32 tag!"UAAL") s.use_aal,
  opt (wI32 tag!"UFXA") s.use_fxaa,
  opt (wI32 tag!"UAOC") s.use_ao,
  opt (wI32 tag!"USSR") s.use_ssr,
  opt (wEnum ToneMapper.toU32 tag!"TMAP") s.tone_mapper,
  opt (wF32 tag!"EXPO") s.exposure,
  [wF32 tag!"BLST" s.bloom_strength]]

/-- calls of `write_all_gamedata_records` from MASI to TLCK, /repo/src/vpx/gamedata.rs:1735-2085 -/
def GameData.opsF (s : GameData) : List WOp := List.flatten [
  [wU32 tag!"MASI" s.materials_size],
  [.sizedR tag!"MATE" (bytesList SaveMaterial.bytes s.materials_old)],
  opt (fun l => .sizedR tag!"PHMA" (bytesList SavePhysicsMaterial.bytes l)) s.materials_physics_old,
  materialOps (s.materials.getD []),
  probeOps (s.render_probes.getD []),
  [wU32 tag!"SEDT" s.gameitems_size],
  [wU32 tag!"SSND" s.sounds_size],
  [wU32 tag!"SIMG" s.images_size],
  [wU32 tag!"SFNT" s.fonts_size],
  [wU32 tag!"SCOL" s.collections_size],
  [wWide tag!"NAME" s.name],
  [wData tag!"CCUS" (writeColors s.custom_colors)],
  opt (wData tag!"SECB") s.protection_data,
  [wStringEncNoSize tag!"CODE" s.code],
  opt (wU32 tag!"TLCK") s.locked]

/-- calls made by `write_all_gamedata_records` before `close(true)`, /repo/src/vpx/gamedata.rs:1735-2085 -/
def GameData.ops (version : UInt32) (s : GameData) : List WOp := List.flatten [
  s.opsA1, s.efssEarly version, s.opsA2, s.efssLate version, s.opsB, s.opsC, s.opsD, s.opsE, s.opsF]

/-- `write_all_gamedata_records`, /repo/src/vpx/gamedata.rs:1735-2085 -/
def GameData.write (version : UInt32) (s : GameData) : Res Bytes := writeBiff (s.ops version)

end Vpin
