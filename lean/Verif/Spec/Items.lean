import Verif.Model.Items.DragPoint
import Verif.Model.Items.Wall
import Verif.Model.Items.Flipper
import Verif.Model.Items.Timer
import Verif.Model.Items.Plunger
import Verif.Model.Items.TextBox
import Verif.Model.Items.Bumper
import Verif.Model.Items.Trigger
import Verif.Model.Items.Light
import Verif.Model.Items.Kicker
import Verif.Model.Items.Decal
import Verif.Model.Items.Gate
import Verif.Model.Items.Spinner
import Verif.Model.Items.Ramp
import Verif.Model.Items.Reel
import Verif.Model.Items.LightSequencer
import Verif.Model.Items.Primitive
import Verif.Model.Items.Flasher
import Verif.Model.Items.Rubber
import Verif.Model.Items.HitTarget
import Verif.Model.Items.Ball
import Verif.Model.Items.PartGroup
import Verif.Spec.Common
/-
Which game items the file format can hold: text fields are Latin-1 (or any Unicode text for
wide strings) without NUL and fit in a record, quantised fields hold one of their levels, nested
parts satisfy the same. All other fields are unrestricted. Generated by tools/gen_items.py.
-/
namespace Vpin


/-- payload of a record of a 32 bit size -/
def RecordData (d : Bytes) : Prop := 4 + d.length < 2 ^ 32

instance (d : Bytes) : Decidable (RecordData d) := inferInstanceAs (Decidable (_ < _))

/-- animation frames of a primitive: none at all, or as many compressed lengths as data blocks, and
at least one -/
def AnimFrames (lens : Option (List UInt32)) (datas : Option (List Bytes)) : Prop :=
  (lens = none ∧ datas = none) ∨
  ∃ ls ds, lens = some ls ∧ datas = some ds ∧ ls.length = ds.length ∧ ls ≠ [] ∧
    ∀ d ∈ ds, RecordData d

/-- the variant for unknown numbers does not hold a known one -/
def GateType.WF : GateType → Prop
  | .Unknown n => n ≠ 1 ∧ n ≠ 2 ∧ n ≠ 3 ∧ n ≠ 4
  | _ => True

instance (v : GateType) : Decidable v.WF := by cases v <;> simp only [GateType.WF] <;> infer_instance

/-- the variant for unknown numbers does not hold a known one -/
def ToneMapper.WF : ToneMapper → Prop
  | .Other n => n ≠ 0 ∧ n ≠ 1 ∧ n ≠ 2 ∧ n ≠ 3 ∧ n ≠ 4
  | _ => True

instance (v : ToneMapper) : Decidable v.WF := by cases v <;> simp only [ToneMapper.WF] <;> infer_instance

structure DragPoint.WF (s : DragPoint) : Prop where
  editor_layer_name : OptP Text s.editor_layer_name

structure Wall.WF (s : Wall) : Prop where
  image : Text s.image
  side_image : Text s.side_image
  side_material : Text s.side_material
  top_material : Text s.top_material
  slingshot_material : Text s.slingshot_material
  name : WText s.name
  disable_lighting_top_old : OptP Level8 s.disable_lighting_top_old
  physics_material : OptP Text s.physics_material
  shared : s.shared.WF
  drag_points : ∀ p ∈ s.drag_points, p.WF

structure Flipper.WF (s : Flipper) : Prop where
  surface : Text s.surface
  material : Text s.material
  name : WText s.name
  rubber_material : Text s.rubber_material
  image : OptP Text s.image
  shared : s.shared.WF

structure Timer.WF (s : Timer) : Prop where
  name : WText s.name
  shared : s.shared.WF

structure Plunger.WF (s : Plunger) : Prop where
  material : Text s.material
  image : Text s.image
  surface : Text s.surface
  name : WText s.name
  tip_shape : Text s.tip_shape
  shared : s.shared.WF

structure TextBox.WF (s : TextBox) : Prop where
  text : Text s.text
  name : WText s.name
  shared : s.shared.WF
  font : Font.WF s.font

structure Bumper.WF (s : Bumper) : Prop where
  cap_material : Text s.cap_material
  base_material : Text s.base_material
  socket_material : Text s.socket_material
  ring_material : OptP Text s.ring_material
  surface : Text s.surface
  name : WText s.name
  shared : s.shared.WF

structure Trigger.WF (s : Trigger) : Prop where
  surface : Text s.surface
  material : Text s.material
  name : WText s.name
  shared : s.shared.WF
  drag_points : ∀ p ∈ s.drag_points, p.WF

structure Light.WF (s : Light) : Prop where
  blink_pattern : Text s.blink_pattern
  image : Text s.image
  surface : Text s.surface
  name : WText s.name
  shared : s.shared.WF
  drag_points : ∀ p ∈ s.drag_points, p.WF

structure Kicker.WF (s : Kicker) : Prop where
  material : Text s.material
  surface : Text s.surface
  name : WText s.name
  shared : s.shared.WF

structure Decal.WF (s : Decal) : Prop where
  image : Text s.image
  surface : Text s.surface
  name : WText s.name
  text : Text s.text
  material : Text s.material
  shared : s.shared.WF
  font : Font.WF s.font

structure Gate.WF (s : Gate) : Prop where
  material : Text s.material
  imgf : OptP Text s.imgf
  imgb : OptP Text s.imgb
  surface : Text s.surface
  name : WText s.name
  gate_type : OptP GateType.WF s.gate_type
  shared : s.shared.WF

structure Spinner.WF (s : Spinner) : Prop where
  material : Text s.material
  image : Text s.image
  surface : Text s.surface
  name : WText s.name
  shared : s.shared.WF

structure Ramp.WF (s : Ramp) : Prop where
  material : Text s.material
  name : WText s.name
  image : Text s.image
  physics_material : OptP Text s.physics_material
  shared : s.shared.WF
  drag_points : ∀ p ∈ s.drag_points, p.WF

structure Reel.WF (s : Reel) : Prop where
  image : Text s.image
  sound : Text s.sound
  name : WText s.name
  shared : s.shared.WF

structure LightSequencer.WF (s : LightSequencer) : Prop where
  collection : WText s.collection
  name : WText s.name
  part_group_name : OptP Text s.part_group_name
  editor_layer_name : OptP Text s.editor_layer_name

structure Primitive.WF (s : Primitive) : Prop where
  image : Text s.image
  normal_map : OptP Text s.normal_map
  name : WText s.name
  material : Text s.material
  disable_lighting_top_old : OptP Level8 s.disable_lighting_top_old
  physics_material : OptP Text s.physics_material
  mesh_file_name : OptP Text s.mesh_file_name
  compressed_vertices_data : OptP RecordData s.compressed_vertices_data
  compressed_indices_data : OptP RecordData s.compressed_indices_data
  animation : AnimFrames s.compressed_animation_vertices_len s.compressed_animation_vertices_data
  light_map : OptP Text s.light_map
  reflection_probe : OptP Text s.reflection_probe
  refraction_probe : OptP Text s.refraction_probe
  shared : s.shared.WF

structure Flasher.WF (s : Flasher) : Prop where
  name : WText s.name
  image_a : Text s.image_a
  image_b : Text s.image_b
  image_src_link : OptP Text s.image_src_link
  light_map : OptP Text s.light_map
  shared : s.shared.WF
  drag_points : ∀ p ∈ s.drag_points, p.WF

structure Rubber.WF (s : Rubber) : Prop where
  material : Text s.material
  name : WText s.name
  image : Text s.image
  physics_material : OptP Text s.physics_material
  shared : s.shared.WF
  drag_points : ∀ p ∈ s.drag_points, p.WF

structure HitTarget.WF (s : HitTarget) : Prop where
  image : Text s.image
  name : WText s.name
  material : Text s.material
  disable_lighting_top_old : OptP Level8 s.disable_lighting_top_old
  physics_material : OptP Text s.physics_material
  shared : s.shared.WF

structure Ball.WF (s : Ball) : Prop where
  image : Text s.image
  image_decal : Text s.image_decal
  name : WText s.name
  shared : s.shared.WF

structure PartGroup.WF (s : PartGroup) : Prop where
  name : WText s.name
  editor_layer_name : OptP Text s.editor_layer_name

/-- a DragPoint with every optional part present, used to show that the theorems are not vacuous -/
def DragPoint.sample : DragPoint where
  x := 0x3f800000
  y := 0x3f800000
  z := 0x3fc00000
  smooth := true
  is_slingshot := some true
  has_auto_texture := true
  tex_coord := 0x3fc00000
  is_locked := true
  editor_layer := some 7
  editor_layer_name := some ("caf\u00e9 1".toList)
  editor_layer_visibility := some true

theorem DragPoint.sample_wf : DragPoint.sample.WF where
  editor_layer_name := .some (by decide)

/-- a Wall with every optional part present, used to show that the theorems are not vacuous -/
def Wall.sample : Wall where
  name := "na\u03bcme 😀".toList
  hit_event := true
  is_droppable := true
  is_flipbook := true
  is_bottom_solid := true
  is_collidable := true
  threshold := 0x3fc00000
  image := "caf\u00e9 1".toList
  side_image := "caf\u00e9 1".toList
  side_material := "caf\u00e9 1".toList
  top_material := "caf\u00e9 1".toList
  slingshot_material := "caf\u00e9 1".toList
  height_bottom := 0x3fc00000
  height_top := 0x3fc00000
  display_texture := true
  slingshot_force := 0x3fc00000
  slingshot_threshold := 0x3fc00000
  elasticity := 0x3fc00000
  elasticity_falloff := some 0x3fc00000
  friction := 0x3fc00000
  scatter := 0x3fc00000
  is_top_bottom_visible := true
  slingshot_animation := true
  is_side_visible := true
  disable_lighting_top_old := some (dequantize8 128)
  disable_lighting_top := some 0x3fc00000
  disable_lighting_below := some 0x3fc00000
  is_reflection_enabled := some true
  physics_material := some ("caf\u00e9 1".toList)
  overwrite_physics := some true
  timer := ⟨true, 250⟩
  shared := ⟨true, some 3, some "Layer 1".toList, some false, some "Group".toList⟩
  drag_points := [DragPoint.sample]

theorem Wall.sample_wf : Wall.sample.WF where
  image := by decide
  side_image := by decide
  side_material := by decide
  top_material := by decide
  slingshot_material := by decide
  name := by decide
  disable_lighting_top_old := .some (⟨128, by decide, rfl⟩)
  physics_material := .some (by decide)
  shared := ⟨.some (by decide), .some (by decide)⟩
  drag_points := fun _ hp => List.mem_singleton.1 hp ▸ DragPoint.sample_wf

/-- a Flipper with every optional part present, used to show that the theorems are not vacuous -/
def Flipper.sample : Flipper where
  name := "na\u03bcme 😀".toList
  center := ⟨0x3f800000, 0xc0000000⟩
  base_radius := 0x3fc00000
  end_radius := 0x3fc00000
  flipper_radius_max := 0x3fc00000
  return_ := 0x3fc00000
  start_angle := 0x3fc00000
  end_angle := 0x3fc00000
  override_physics := 7
  mass := 0x3fc00000
  surface := "caf\u00e9 1".toList
  material := "caf\u00e9 1".toList
  rubber_material := "caf\u00e9 1".toList
  rubber_thickness_int := 7
  rubber_thickness := some 0x3fc00000
  rubber_height_int := 7
  rubber_height := some 0x3fc00000
  rubber_width_int := 7
  rubber_width := some 0x3fc00000
  strength := 0x3fc00000
  elasticity := 0x3fc00000
  elasticity_falloff := 0x3fc00000
  friction := 0x3fc00000
  ramp_up := 0x3fc00000
  scatter := some 0x3fc00000
  torque_damping := some 0x3fc00000
  torque_damping_angle := some 0x3fc00000
  flipper_radius_min := 0x3fc00000
  is_visible := true
  is_enabled := true
  height := 0x3fc00000
  image := some ("caf\u00e9 1".toList)
  is_reflection_enabled := some true
  timer := ⟨true, 250⟩
  shared := ⟨true, some 3, some "Layer 1".toList, some false, some "Group".toList⟩

theorem Flipper.sample_wf : Flipper.sample.WF where
  surface := by decide
  material := by decide
  name := by decide
  rubber_material := by decide
  image := .some (by decide)
  shared := ⟨.some (by decide), .some (by decide)⟩

/-- a Timer with every optional part present, used to show that the theorems are not vacuous -/
def Timer.sample : Timer where
  center := ⟨0x3f800000, 0xc0000000⟩
  name := "na\u03bcme 😀".toList
  backglass := true
  timer := ⟨true, 250⟩
  shared := ⟨true, some 3, some "Layer 1".toList, some false, some "Group".toList⟩

theorem Timer.sample_wf : Timer.sample.WF where
  name := by decide
  shared := ⟨.some (by decide), .some (by decide)⟩

/-- a Plunger with every optional part present, used to show that the theorems are not vacuous -/
def Plunger.sample : Plunger where
  center := ⟨0x3f800000, 0xc0000000⟩
  width := 0x3fc00000
  height := 0x3fc00000
  z_adjust := 0x3fc00000
  stroke := 0x3fc00000
  speed_pull := 0x3fc00000
  speed_fire := 0x3fc00000
  plunger_type := .Custom
  anim_frames := 7
  material := "caf\u00e9 1".toList
  image := "caf\u00e9 1".toList
  mech_strength := 0x3fc00000
  is_mech_plunger := true
  auto_plunger := true
  park_position := 0x3fc00000
  scatter_velocity := 0x3fc00000
  momentum_xfer := 0x3fc00000
  is_visible := true
  is_reflection_enabled := some true
  surface := "caf\u00e9 1".toList
  name := "na\u03bcme 😀".toList
  tip_shape := "caf\u00e9 1".toList
  rod_diam := 0x3fc00000
  ring_gap := 0x3fc00000
  ring_diam := 0x3fc00000
  ring_width := 0x3fc00000
  spring_diam := 0x3fc00000
  spring_gauge := 0x3fc00000
  spring_loops := 0x3fc00000
  spring_end_loops := 0x3fc00000
  timer := ⟨true, 250⟩
  shared := ⟨true, some 3, some "Layer 1".toList, some false, some "Group".toList⟩

theorem Plunger.sample_wf : Plunger.sample.WF where
  material := by decide
  image := by decide
  surface := by decide
  name := by decide
  tip_shape := by decide
  shared := ⟨.some (by decide), .some (by decide)⟩

/-- a TextBox with every optional part present, used to show that the theorems are not vacuous -/
def TextBox.sample : TextBox where
  ver1 := ⟨0x3f800000, 0xc0000000⟩
  ver2 := ⟨0x3f800000, 0xc0000000⟩
  back_color := Color.rgb 1 2 3
  font_color := Color.rgb 1 2 3
  intensity_scale := 0x3fc00000
  text := "caf\u00e9 1".toList
  name := "na\u03bcme 😀".toList
  align := .Right
  is_transparent := true
  is_dmd := some true
  font := { Font.default with weight := 700 }
  timer := ⟨true, 250⟩
  shared := ⟨true, some 3, some "Layer 1".toList, some false, some "Group".toList⟩

theorem TextBox.sample_wf : TextBox.sample.WF where
  text := by decide
  name := by decide
  shared := ⟨.some (by decide), .some (by decide)⟩
  font := by decide

/-- a Bumper with every optional part present, used to show that the theorems are not vacuous -/
def Bumper.sample : Bumper where
  name := "na\u03bcme 😀".toList
  center := ⟨0x3f800000, 0xc0000000⟩
  radius := 0x3fc00000
  threshold := 0x3fc00000
  force := 0x3fc00000
  scatter := some 0x3fc00000
  height_scale := 0x3fc00000
  ring_speed := 0x3fc00000
  orientation := 0x3fc00000
  ring_drop_offset := some 0x3fc00000
  cap_material := "caf\u00e9 1".toList
  base_material := "caf\u00e9 1".toList
  socket_material := "caf\u00e9 1".toList
  ring_material := some ("caf\u00e9 1".toList)
  surface := "caf\u00e9 1".toList
  is_cap_visible := true
  is_base_visible := true
  is_ring_visible := some true
  is_socket_visible := some true
  hit_event := some true
  is_collidable := some true
  is_reflection_enabled := some true
  timer := ⟨true, 250⟩
  shared := ⟨true, some 3, some "Layer 1".toList, some false, some "Group".toList⟩

theorem Bumper.sample_wf : Bumper.sample.WF where
  cap_material := by decide
  base_material := by decide
  socket_material := by decide
  ring_material := .some (by decide)
  surface := by decide
  name := by decide
  shared := ⟨.some (by decide), .some (by decide)⟩

/-- a Trigger with every optional part present, used to show that the theorems are not vacuous -/
def Trigger.sample : Trigger where
  name := "na\u03bcme 😀".toList
  center := ⟨0x3f800000, 0xc0000000⟩
  radius := 0x3fc00000
  rotation := 0x3fc00000
  wire_thickness := some 0x3fc00000
  scale_x := 0x3fc00000
  scale_y := 0x3fc00000
  material := "caf\u00e9 1".toList
  surface := "caf\u00e9 1".toList
  is_visible := true
  is_enabled := true
  hit_height := 0x3fc00000
  shape := .Inder
  anim_speed := 0x3fc00000
  is_reflection_enabled := some true
  timer := ⟨true, 250⟩
  shared := ⟨true, some 3, some "Layer 1".toList, some false, some "Group".toList⟩
  drag_points := [DragPoint.sample]

theorem Trigger.sample_wf : Trigger.sample.WF where
  surface := by decide
  material := by decide
  name := by decide
  shared := ⟨.some (by decide), .some (by decide)⟩
  drag_points := fun _ hp => List.mem_singleton.1 hp ▸ DragPoint.sample_wf

/-- a Light with every optional part present, used to show that the theorems are not vacuous -/
def Light.sample : Light where
  name := "na\u03bcme 😀".toList
  center := ⟨0x3f800000, 0xc0000000⟩
  height := some 0x3fc00000
  falloff_radius := 0x3fc00000
  falloff_power := 0x3fc00000
  state_u32 := 7
  state := some 0x3fc00000
  color := Color.rgb 1 2 3
  color2 := Color.rgb 1 2 3
  blink_pattern := "caf\u00e9 1".toList
  image := "caf\u00e9 1".toList
  blink_interval := 7
  intensity := 0x3fc00000
  transmission_scale := 0x3fc00000
  surface := "caf\u00e9 1".toList
  is_backglass := true
  depth_bias := 0x3fc00000
  fade_speed_up := 0x3fc00000
  fade_speed_down := 0x3fc00000
  is_bulb_light := true
  is_image_mode := true
  show_bulb_mesh := true
  has_static_bulb_mesh := some true
  show_reflection_on_ball := true
  mesh_radius := 0x3fc00000
  bulb_modulate_vs_add := 0x3fc00000
  bulb_halo_height := 0x3fc00000
  shadows := some .RaytracedBallShadows
  fader := some .Incandescent
  visible := some true
  timer := ⟨true, 250⟩
  shared := ⟨true, some 3, some "Layer 1".toList, some false, some "Group".toList⟩
  drag_points := [DragPoint.sample]

theorem Light.sample_wf : Light.sample.WF where
  blink_pattern := by decide
  image := by decide
  surface := by decide
  name := by decide
  shared := ⟨.some (by decide), .some (by decide)⟩
  drag_points := fun _ hp => List.mem_singleton.1 hp ▸ DragPoint.sample_wf

/-- a Kicker with every optional part present, used to show that the theorems are not vacuous -/
def Kicker.sample : Kicker where
  center := ⟨0x3f800000, 0xc0000000⟩
  radius := 0x3fc00000
  material := "caf\u00e9 1".toList
  surface := "caf\u00e9 1".toList
  is_enabled := true
  name := "na\u03bcme 😀".toList
  kicker_type := .Cup2
  scatter := 0x3fc00000
  hit_accuracy := 0x3fc00000
  hit_height := some 0x3fc00000
  orientation := 0x3fc00000
  fall_through := true
  legacy_mode := true
  timer := ⟨true, 250⟩
  shared := ⟨true, some 3, some "Layer 1".toList, some false, some "Group".toList⟩

theorem Kicker.sample_wf : Kicker.sample.WF where
  material := by decide
  surface := by decide
  name := by decide
  shared := ⟨.some (by decide), .some (by decide)⟩

/-- a Decal with every optional part present, used to show that the theorems are not vacuous -/
def Decal.sample : Decal where
  center := ⟨0x3f800000, 0xc0000000⟩
  width := 0x3fc00000
  height := 0x3fc00000
  rotation := 0x3fc00000
  image := "caf\u00e9 1".toList
  surface := "caf\u00e9 1".toList
  name := "na\u03bcme 😀".toList
  text := "caf\u00e9 1".toList
  decal_type := .Image
  material := "caf\u00e9 1".toList
  color := Color.rgb 1 2 3
  sizing_type := .ManualSize
  vertical_text := true
  backglass := true
  font := { Font.default with weight := 700 }
  shared := ⟨true, some 3, some "Layer 1".toList, some false, some "Group".toList⟩

theorem Decal.sample_wf : Decal.sample.WF where
  image := by decide
  surface := by decide
  name := by decide
  text := by decide
  material := by decide
  shared := ⟨.some (by decide), .some (by decide)⟩
  font := by decide

/-- a Gate with every optional part present, used to show that the theorems are not vacuous -/
def Gate.sample : Gate where
  name := "na\u03bcme 😀".toList
  center := ⟨0x3f800000, 0xc0000000⟩
  length := 0x3fc00000
  height := 0x3fc00000
  rotation := 0x3fc00000
  material := "caf\u00e9 1".toList
  show_bracket := true
  is_collidable := true
  imgf := some ("caf\u00e9 1".toList)
  imgb := some ("caf\u00e9 1".toList)
  surface := "caf\u00e9 1".toList
  elasticity := 0x3fc00000
  angle_max := 0x3fc00000
  angle_min := 0x3fc00000
  friction := 0x3fc00000
  damping := some 0x3fc00000
  gravity_factor := some 0x3fc00000
  is_visible := true
  two_way := true
  is_reflection_enabled := some true
  gate_type := some (.Unknown 77)
  timer := ⟨true, 250⟩
  shared := ⟨true, some 3, some "Layer 1".toList, some false, some "Group".toList⟩

theorem Gate.sample_wf : Gate.sample.WF where
  material := by decide
  imgf := .some (by decide)
  imgb := .some (by decide)
  surface := by decide
  name := by decide
  gate_type := .some (by decide)
  shared := ⟨.some (by decide), .some (by decide)⟩

/-- a Spinner with every optional part present, used to show that the theorems are not vacuous -/
def Spinner.sample : Spinner where
  name := "na\u03bcme 😀".toList
  center := ⟨0x3f800000, 0xc0000000⟩
  rotation := 0x3fc00000
  height := 0x3fc00000
  length := 0x3fc00000
  damping := 0x3fc00000
  angle_max := 0x3fc00000
  angle_min := 0x3fc00000
  elasticity := 0x3fc00000
  is_visible := true
  show_bracket := true
  material := "caf\u00e9 1".toList
  image := "caf\u00e9 1".toList
  surface := "caf\u00e9 1".toList
  is_reflection_enabled := some true
  timer := ⟨true, 250⟩
  shared := ⟨true, some 3, some "Layer 1".toList, some false, some "Group".toList⟩

theorem Spinner.sample_wf : Spinner.sample.WF where
  material := by decide
  image := by decide
  surface := by decide
  name := by decide
  shared := ⟨.some (by decide), .some (by decide)⟩

/-- a Ramp with every optional part present, used to show that the theorems are not vacuous -/
def Ramp.sample : Ramp where
  height_bottom := 0x3fc00000
  height_top := 0x3fc00000
  width_bottom := 0x3fc00000
  width_top := 0x3fc00000
  material := "caf\u00e9 1".toList
  ramp_type := .OneWire
  name := "na\u03bcme 😀".toList
  image := "caf\u00e9 1".toList
  image_alignment := .Unknown
  image_walls := true
  left_wall_height := 0x3fc00000
  right_wall_height := 0x3fc00000
  left_wall_height_visible := 0x3fc00000
  right_wall_height_visible := 0x3fc00000
  hit_event := some true
  threshold := some 0x3fc00000
  elasticity := 0x3fc00000
  friction := 0x3fc00000
  scatter := 0x3fc00000
  is_collidable := true
  is_visible := true
  depth_bias := 0x3fc00000
  wire_diameter := 0x3fc00000
  wire_distance_x := 0x3fc00000
  wire_distance_y := 0x3fc00000
  is_reflection_enabled := some true
  physics_material := some ("caf\u00e9 1".toList)
  overwrite_physics := some true
  drag_points := [DragPoint.sample]
  timer := ⟨true, 250⟩
  shared := ⟨true, some 3, some "Layer 1".toList, some false, some "Group".toList⟩

theorem Ramp.sample_wf : Ramp.sample.WF where
  material := by decide
  name := by decide
  image := by decide
  physics_material := .some (by decide)
  shared := ⟨.some (by decide), .some (by decide)⟩
  drag_points := fun _ hp => List.mem_singleton.1 hp ▸ DragPoint.sample_wf

/-- a Reel with every optional part present, used to show that the theorems are not vacuous -/
def Reel.sample : Reel where
  ver1 := ⟨0x3f800000, 0xc0000000⟩
  ver2 := ⟨0x3f800000, 0xc0000000⟩
  back_color := Color.rgb 1 2 3
  is_transparent := true
  image := "caf\u00e9 1".toList
  sound := "caf\u00e9 1".toList
  name := "na\u03bcme 😀".toList
  width := 0x3fc00000
  height := 0x3fc00000
  reel_count := 0x3fc00000
  reel_spacing := 0x3fc00000
  motor_steps := 0x3fc00000
  digit_range := 0x3fc00000
  update_interval := 7
  use_image_grid := true
  is_visible := true
  images_per_grid_row := 7
  timer := ⟨true, 250⟩
  shared := ⟨true, some 3, some "Layer 1".toList, some false, some "Group".toList⟩

theorem Reel.sample_wf : Reel.sample.WF where
  image := by decide
  sound := by decide
  name := by decide
  shared := ⟨.some (by decide), .some (by decide)⟩

/-- a LightSequencer with every optional part present, used to show that the theorems are not vacuous -/
def LightSequencer.sample : LightSequencer where
  center := ⟨0x3f800000, 0xc0000000⟩
  collection := "na\u03bcme 😀".toList
  pos_x := 0x3fc00000
  pos_y := 0x3fc00000
  update_interval := 7
  name := "na\u03bcme 😀".toList
  backglass := true
  timer := ⟨true, 250⟩
  is_locked := some true
  editor_layer := some 7
  editor_layer_name := some ("caf\u00e9 1".toList)
  editor_layer_visibility := some true
  part_group_name := some ("caf\u00e9 1".toList)

theorem LightSequencer.sample_wf : LightSequencer.sample.WF where
  collection := by decide
  name := by decide
  part_group_name := .some (by decide)
  editor_layer_name := .some (by decide)

/-- a Primitive with every optional part present, used to show that the theorems are not vacuous -/
def Primitive.sample : Primitive where
  name := "na\u03bcme 😀".toList
  position := ⟨0x3f800000, 0xc0000000, 0x40400000⟩
  size := ⟨0x3f800000, 0xc0000000, 0x40400000⟩
  rot_and_tra0 := 0x3fc00000
  rot_and_tra1 := 0x3fc00000
  rot_and_tra2 := 0x3fc00000
  rot_and_tra3 := 0x3fc00000
  rot_and_tra4 := 0x3fc00000
  rot_and_tra5 := 0x3fc00000
  rot_and_tra6 := 0x3fc00000
  rot_and_tra7 := 0x3fc00000
  rot_and_tra8 := 0x3fc00000
  image := "caf\u00e9 1".toList
  normal_map := some ("caf\u00e9 1".toList)
  sides := 7
  material := "caf\u00e9 1".toList
  side_color := Color.rgb 1 2 3
  is_visible := true
  draw_textures_inside := true
  hit_event := true
  threshold := 0x3fc00000
  elasticity := 0x3fc00000
  elasticity_falloff := 0x3fc00000
  friction := 0x3fc00000
  scatter := 0x3fc00000
  edge_factor_ui := 0x3fc00000
  collision_reduction_factor := some 0x3fc00000
  is_collidable := true
  is_toy := true
  use_3d_mesh := true
  static_rendering := true
  disable_lighting_top_old := some (dequantize8 128)
  disable_lighting_top := some 0x3fc00000
  disable_lighting_below := some 0x3fc00000
  is_reflection_enabled := some true
  backfaces_enabled := some true
  physics_material := some ("caf\u00e9 1".toList)
  overwrite_physics := some true
  display_texture := some true
  object_space_normal_map := some true
  min_aa_bound := some ⟨0x3f800000, 0xc0000000, 0x40400000⟩
  max_aa_bound := some ⟨0x3f800000, 0xc0000000, 0x40400000⟩
  mesh_file_name := some ("caf\u00e9 1".toList)
  num_vertices := some 7
  compressed_vertices_len := some 7
  compressed_vertices_data := some [1, 2, 3]
  num_indices := some 7
  compressed_indices_len := some 7
  compressed_indices_data := some [1, 2, 3]
  compressed_animation_vertices_len := some [3]
  compressed_animation_vertices_data := some [[1, 2, 3]]
  depth_bias := 0x3fc00000
  add_blend := some true
  use_depth_mask := some true
  alpha := some 0x3fc00000
  color := some (Color.rgb 1 2 3)
  light_map := some ("caf\u00e9 1".toList)
  reflection_probe := some ("caf\u00e9 1".toList)
  reflection_strength := some 0x3fc00000
  refraction_probe := some ("caf\u00e9 1".toList)
  refraction_thickness := some 0x3fc00000
  shared := ⟨true, some 3, some "Layer 1".toList, some false, some "Group".toList⟩

theorem Primitive.sample_wf : Primitive.sample.WF where
  image := by decide
  normal_map := .some (by decide)
  name := by decide
  material := by decide
  disable_lighting_top_old := .some (⟨128, by decide, rfl⟩)
  physics_material := .some (by decide)
  mesh_file_name := .some (by decide)
  compressed_vertices_data := .some (by decide)
  compressed_indices_data := .some (by decide)
  animation := .inr ⟨[3], [[1, 2, 3]], rfl, rfl, rfl, by decide, by decide⟩
  light_map := .some (by decide)
  reflection_probe := .some (by decide)
  refraction_probe := .some (by decide)
  shared := ⟨.some (by decide), .some (by decide)⟩

/-- a Flasher with every optional part present, used to show that the theorems are not vacuous -/
def Flasher.sample : Flasher where
  height := 0x3fc00000
  pos_x := 0x3fc00000
  pos_y := 0x3fc00000
  rot_x := 0x3fc00000
  rot_y := 0x3fc00000
  rot_z := 0x3fc00000
  color := Color.rgb 1 2 3
  name := "na\u03bcme 😀".toList
  image_a := "caf\u00e9 1".toList
  image_b := "caf\u00e9 1".toList
  alpha := (-7)
  modulate_vs_add := 0x3fc00000
  is_visible := true
  add_blend := true
  is_dmd := some true
  render_mode := some .ExtRender
  render_style := some 7
  glass_roughness := some 0x3fc00000
  glass_ambient := some 7
  glass_pad_top := some 0x3fc00000
  glass_pad_bottom := some 0x3fc00000
  glass_pad_left := some 0x3fc00000
  glass_pad_right := some 0x3fc00000
  image_src_link := some ("caf\u00e9 1".toList)
  display_texture := true
  depth_bias := 0x3fc00000
  image_alignment := .Unknown
  filter := .Screen
  filter_amount := 7
  light_map := some ("caf\u00e9 1".toList)
  backglass := some true
  drag_points := [DragPoint.sample]
  timer := ⟨true, 250⟩
  shared := ⟨true, some 3, some "Layer 1".toList, some false, some "Group".toList⟩

theorem Flasher.sample_wf : Flasher.sample.WF where
  name := by decide
  image_a := by decide
  image_b := by decide
  image_src_link := .some (by decide)
  light_map := .some (by decide)
  shared := ⟨.some (by decide), .some (by decide)⟩
  drag_points := fun _ hp => List.mem_singleton.1 hp ▸ DragPoint.sample_wf

/-- a Rubber with every optional part present, used to show that the theorems are not vacuous -/
def Rubber.sample : Rubber where
  height := 0x3fc00000
  hit_height := some 0x3fc00000
  thickness := (-7)
  hit_event := true
  material := "caf\u00e9 1".toList
  name := "na\u03bcme 😀".toList
  image := "caf\u00e9 1".toList
  elasticity := 0x3fc00000
  elasticity_falloff := 0x3fc00000
  friction := 0x3fc00000
  scatter := 0x3fc00000
  is_collidable := true
  is_visible := true
  radb := some 0x3fc00000
  static_rendering := true
  show_in_editor := true
  rot_x := 0x3fc00000
  rot_y := 0x3fc00000
  rot_z := 0x3fc00000
  is_reflection_enabled := some true
  physics_material := some ("caf\u00e9 1".toList)
  overwrite_physics := some true
  timer := ⟨true, 250⟩
  shared := ⟨true, some 3, some "Layer 1".toList, some false, some "Group".toList⟩
  drag_points := [DragPoint.sample]

theorem Rubber.sample_wf : Rubber.sample.WF where
  material := by decide
  name := by decide
  image := by decide
  physics_material := .some (by decide)
  shared := ⟨.some (by decide), .some (by decide)⟩
  drag_points := fun _ hp => List.mem_singleton.1 hp ▸ DragPoint.sample_wf

/-- a HitTarget with every optional part present, used to show that the theorems are not vacuous -/
def HitTarget.sample : HitTarget where
  name := "na\u03bcme 😀".toList
  position := ⟨0x3f800000, 0xc0000000, 0x40400000⟩
  size := ⟨0x3f800000, 0xc0000000, 0x40400000⟩
  rot_z := 0x3fc00000
  image := "caf\u00e9 1".toList
  target_type := .HitTargetSlim
  material := "caf\u00e9 1".toList
  is_visible := true
  is_legacy := true
  use_hit_event := true
  threshold := 0x3fc00000
  elasticity := 0x3fc00000
  elasticity_falloff := 0x3fc00000
  friction := 0x3fc00000
  scatter := 0x3fc00000
  is_collidable := true
  disable_lighting_top_old := some (dequantize8 128)
  disable_lighting_top := some 0x3fc00000
  disable_lighting_below := some 0x3fc00000
  depth_bias := 0x3fc00000
  is_reflection_enabled := true
  is_dropped := true
  drop_speed := 0x3fc00000
  raise_delay := some 7
  physics_material := some ("caf\u00e9 1".toList)
  overwrite_physics := some true
  timer := ⟨true, 250⟩
  shared := ⟨true, some 3, some "Layer 1".toList, some false, some "Group".toList⟩

theorem HitTarget.sample_wf : HitTarget.sample.WF where
  image := by decide
  name := by decide
  material := by decide
  disable_lighting_top_old := .some (⟨128, by decide, rfl⟩)
  physics_material := .some (by decide)
  shared := ⟨.some (by decide), .some (by decide)⟩

/-- a Ball with every optional part present, used to show that the theorems are not vacuous -/
def Ball.sample : Ball where
  name := "na\u03bcme 😀".toList
  pos := ⟨0x3f800000, 0xc0000000, 0x40400000⟩
  radius := 0x3fc00000
  mass := 0x3fc00000
  force_reflection := true
  decal_mode := true
  image := "caf\u00e9 1".toList
  image_decal := "caf\u00e9 1".toList
  bulb_intensity_scale := 0x3fc00000
  playfield_reflection_strength := 0x3fc00000
  color := Color.rgb 1 2 3
  spherical_mapping := true
  is_reflection_enabled := true
  timer := ⟨true, 250⟩
  shared := ⟨true, some 3, some "Layer 1".toList, some false, some "Group".toList⟩

theorem Ball.sample_wf : Ball.sample.WF where
  image := by decide
  image_decal := by decide
  name := by decide
  shared := ⟨.some (by decide), .some (by decide)⟩

/-- a PartGroup with every optional part present, used to show that the theorems are not vacuous -/
def PartGroup.sample : PartGroup where
  name := "na\u03bcme 😀".toList
  center := ⟨0x3f800000, 0xc0000000⟩
  timer := ⟨true, 250⟩
  backglass := true
  visibility_mask := some 7
  space_reference := .Playfield
  player_mode_visibility_mask := some 7
  is_locked := true
  editor_layer_name := some ("caf\u00e9 1".toList)
  editor_layer_visibility := some true

theorem PartGroup.sample_wf : PartGroup.sample.WF where
  name := by decide
  editor_layer_name := .some (by decide)

end Vpin
