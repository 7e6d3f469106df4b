import Verif.Model.GameItem
import Verif.Spec.Items
import Verif.Spec.Json
/-
Which game items their JSON form can hold: numbers in plain fields are finite and kept by the JSON text. All
other fields are unrestricted. Generated by tools/gen_json.py.
-/
namespace Vpin

/-- all of a DragPoint is in its JSON form -/
def DragPoint.jsonPart (s : DragPoint) : DragPoint := s

structure DragPoint.JsonOk (keeps : F32 → Prop) (s : DragPoint) : Prop where
  x : PlainF32 keeps s.x
  y : PlainF32 keeps s.y
  z : PlainF32 keeps s.z
  tex_coord : PlainF32 keeps s.tex_coord

/-- a Wall without what its JSON form does not hold -/
def Wall.jsonPart (s : Wall) : Wall := { s with shared := { s.shared with is_locked := false, editor_layer := none, editor_layer_name := none, editor_layer_visibility := none } }

structure Wall.JsonOk (keeps : F32 → Prop) (s : Wall) : Prop where
  threshold : PlainF32 keeps s.threshold
  height_bottom : PlainF32 keeps s.height_bottom
  height_top : PlainF32 keeps s.height_top
  slingshot_force : PlainF32 keeps s.slingshot_force
  slingshot_threshold : PlainF32 keeps s.slingshot_threshold
  elasticity : PlainF32 keeps s.elasticity
  elasticity_falloff : OptP (PlainF32 keeps) s.elasticity_falloff
  friction : PlainF32 keeps s.friction
  scatter : PlainF32 keeps s.scatter
  disable_lighting_top_old : OptP (PlainF32 keeps) s.disable_lighting_top_old
  disable_lighting_top : OptP (PlainF32 keeps) s.disable_lighting_top
  disable_lighting_below : OptP (PlainF32 keeps) s.disable_lighting_below
  drag_points : ∀ p ∈ s.drag_points, DragPoint.JsonOk keeps p

/-- a Flipper without what its JSON form does not hold -/
def Flipper.jsonPart (s : Flipper) : Flipper := { s with shared := { s.shared with is_locked := false, editor_layer := none, editor_layer_name := none, editor_layer_visibility := none } }

structure Flipper.JsonOk (keeps : F32 → Prop) (s : Flipper) : Prop where
  center : Vertex2D.JsonOk keeps s.center
  base_radius : PlainF32 keeps s.base_radius
  end_radius : PlainF32 keeps s.end_radius
  flipper_radius_max : PlainF32 keeps s.flipper_radius_max
  return_ : PlainF32 keeps s.return_
  start_angle : PlainF32 keeps s.start_angle
  end_angle : PlainF32 keeps s.end_angle
  mass : PlainF32 keeps s.mass
  rubber_thickness : OptP (PlainF32 keeps) s.rubber_thickness
  rubber_height : OptP (PlainF32 keeps) s.rubber_height
  rubber_width : OptP (PlainF32 keeps) s.rubber_width
  strength : PlainF32 keeps s.strength
  elasticity : PlainF32 keeps s.elasticity
  elasticity_falloff : PlainF32 keeps s.elasticity_falloff
  friction : PlainF32 keeps s.friction
  ramp_up : PlainF32 keeps s.ramp_up
  scatter : OptP (PlainF32 keeps) s.scatter
  torque_damping : OptP (PlainF32 keeps) s.torque_damping
  torque_damping_angle : OptP (PlainF32 keeps) s.torque_damping_angle
  flipper_radius_min : PlainF32 keeps s.flipper_radius_min
  height : PlainF32 keeps s.height

/-- a Timer without what its JSON form does not hold -/
def Timer.jsonPart (s : Timer) : Timer := { s with shared := { s.shared with is_locked := false, editor_layer := none, editor_layer_name := none, editor_layer_visibility := none } }

structure Timer.JsonOk (keeps : F32 → Prop) (s : Timer) : Prop where
  center : Vertex2D.JsonOk keeps s.center

/-- a Plunger without what its JSON form does not hold -/
def Plunger.jsonPart (s : Plunger) : Plunger := { s with shared := { s.shared with is_locked := false, editor_layer := none, editor_layer_name := none, editor_layer_visibility := none } }

structure Plunger.JsonOk (keeps : F32 → Prop) (s : Plunger) : Prop where
  center : Vertex2D.JsonOk keeps s.center
  width : PlainF32 keeps s.width
  height : PlainF32 keeps s.height
  z_adjust : PlainF32 keeps s.z_adjust
  stroke : PlainF32 keeps s.stroke
  speed_pull : PlainF32 keeps s.speed_pull
  speed_fire : PlainF32 keeps s.speed_fire
  mech_strength : PlainF32 keeps s.mech_strength
  park_position : PlainF32 keeps s.park_position
  scatter_velocity : PlainF32 keeps s.scatter_velocity
  momentum_xfer : PlainF32 keeps s.momentum_xfer
  rod_diam : PlainF32 keeps s.rod_diam
  ring_gap : PlainF32 keeps s.ring_gap
  ring_diam : PlainF32 keeps s.ring_diam
  ring_width : PlainF32 keeps s.ring_width
  spring_diam : PlainF32 keeps s.spring_diam
  spring_gauge : PlainF32 keeps s.spring_gauge
  spring_loops : PlainF32 keeps s.spring_loops
  spring_end_loops : PlainF32 keeps s.spring_end_loops

/-- a TextBox without what its JSON form does not hold -/
def TextBox.jsonPart (s : TextBox) : TextBox := { s with shared := { s.shared with is_locked := false, editor_layer := none, editor_layer_name := none, editor_layer_visibility := none } }

structure TextBox.JsonOk (keeps : F32 → Prop) (s : TextBox) : Prop where
  ver1 : Vertex2D.JsonOk keeps s.ver1
  ver2 : Vertex2D.JsonOk keeps s.ver2
  intensity_scale : PlainF32 keeps s.intensity_scale

/-- a Bumper without what its JSON form does not hold -/
def Bumper.jsonPart (s : Bumper) : Bumper := { s with shared := { s.shared with is_locked := false, editor_layer := none, editor_layer_name := none, editor_layer_visibility := none } }

structure Bumper.JsonOk (keeps : F32 → Prop) (s : Bumper) : Prop where
  center : Vertex2D.JsonOk keeps s.center
  radius : PlainF32 keeps s.radius
  threshold : PlainF32 keeps s.threshold
  force : PlainF32 keeps s.force
  scatter : OptP (PlainF32 keeps) s.scatter
  height_scale : PlainF32 keeps s.height_scale
  ring_speed : PlainF32 keeps s.ring_speed
  orientation : PlainF32 keeps s.orientation
  ring_drop_offset : OptP (AnyF32 keeps) s.ring_drop_offset

/-- a Trigger without what its JSON form does not hold -/
def Trigger.jsonPart (s : Trigger) : Trigger := { s with shared := { s.shared with is_locked := false, editor_layer := none, editor_layer_name := none, editor_layer_visibility := none } }

structure Trigger.JsonOk (keeps : F32 → Prop) (s : Trigger) : Prop where
  center : Vertex2D.JsonOk keeps s.center
  radius : PlainF32 keeps s.radius
  rotation : PlainF32 keeps s.rotation
  wire_thickness : OptP (PlainF32 keeps) s.wire_thickness
  scale_x : PlainF32 keeps s.scale_x
  scale_y : PlainF32 keeps s.scale_y
  hit_height : PlainF32 keeps s.hit_height
  anim_speed : PlainF32 keeps s.anim_speed
  drag_points : ∀ p ∈ s.drag_points, DragPoint.JsonOk keeps p

/-- a Light without what its JSON form does not hold -/
def Light.jsonPart (s : Light) : Light := { s with shared := { s.shared with is_locked := false, editor_layer := none, editor_layer_name := none, editor_layer_visibility := none } }

structure Light.JsonOk (keeps : F32 → Prop) (s : Light) : Prop where
  center : Vertex2D.JsonOk keeps s.center
  height : OptP (PlainF32 keeps) s.height
  falloff_radius : PlainF32 keeps s.falloff_radius
  falloff_power : PlainF32 keeps s.falloff_power
  state : OptP (PlainF32 keeps) s.state
  intensity : PlainF32 keeps s.intensity
  transmission_scale : PlainF32 keeps s.transmission_scale
  depth_bias : PlainF32 keeps s.depth_bias
  fade_speed_up : AnyF32 keeps s.fade_speed_up
  fade_speed_down : AnyF32 keeps s.fade_speed_down
  mesh_radius : PlainF32 keeps s.mesh_radius
  bulb_modulate_vs_add : PlainF32 keeps s.bulb_modulate_vs_add
  bulb_halo_height : PlainF32 keeps s.bulb_halo_height
  drag_points : ∀ p ∈ s.drag_points, DragPoint.JsonOk keeps p

/-- a Kicker without what its JSON form does not hold -/
def Kicker.jsonPart (s : Kicker) : Kicker := { s with shared := { s.shared with is_locked := false, editor_layer := none, editor_layer_name := none, editor_layer_visibility := none } }

structure Kicker.JsonOk (keeps : F32 → Prop) (s : Kicker) : Prop where
  center : Vertex2D.JsonOk keeps s.center
  radius : PlainF32 keeps s.radius
  scatter : PlainF32 keeps s.scatter
  hit_accuracy : PlainF32 keeps s.hit_accuracy
  hit_height : OptP (PlainF32 keeps) s.hit_height
  orientation : PlainF32 keeps s.orientation

/-- a Decal without what its JSON form does not hold -/
def Decal.jsonPart (s : Decal) : Decal := { s with shared := { s.shared with is_locked := false, editor_layer := none, editor_layer_name := none, editor_layer_visibility := none } }

structure Decal.JsonOk (keeps : F32 → Prop) (s : Decal) : Prop where
  center : Vertex2D.JsonOk keeps s.center
  width : PlainF32 keeps s.width
  height : PlainF32 keeps s.height
  rotation : PlainF32 keeps s.rotation

/-- a Gate without what its JSON form does not hold -/
def Gate.jsonPart (s : Gate) : Gate := { s with shared := { s.shared with is_locked := false, editor_layer := none, editor_layer_name := none, editor_layer_visibility := none } }

structure Gate.JsonOk (keeps : F32 → Prop) (s : Gate) : Prop where
  center : Vertex2D.JsonOk keeps s.center
  length : PlainF32 keeps s.length
  height : PlainF32 keeps s.height
  rotation : PlainF32 keeps s.rotation
  elasticity : PlainF32 keeps s.elasticity
  angle_max : PlainF32 keeps s.angle_max
  angle_min : PlainF32 keeps s.angle_min
  friction : PlainF32 keeps s.friction
  damping : OptP (PlainF32 keeps) s.damping
  gravity_factor : OptP (PlainF32 keeps) s.gravity_factor
  gate_type : OptP GateType.WF s.gate_type

/-- a Spinner without what its JSON form does not hold -/
def Spinner.jsonPart (s : Spinner) : Spinner := { s with shared := { s.shared with is_locked := false, editor_layer := none, editor_layer_name := none, editor_layer_visibility := none } }

structure Spinner.JsonOk (keeps : F32 → Prop) (s : Spinner) : Prop where
  center : Vertex2D.JsonOk keeps s.center
  rotation : PlainF32 keeps s.rotation
  height : PlainF32 keeps s.height
  length : PlainF32 keeps s.length
  damping : PlainF32 keeps s.damping
  angle_max : PlainF32 keeps s.angle_max
  angle_min : PlainF32 keeps s.angle_min
  elasticity : PlainF32 keeps s.elasticity

/-- a Ramp without what its JSON form does not hold -/
def Ramp.jsonPart (s : Ramp) : Ramp := { s with shared := { s.shared with is_locked := false, editor_layer := none, editor_layer_name := none, editor_layer_visibility := none } }

structure Ramp.JsonOk (keeps : F32 → Prop) (s : Ramp) : Prop where
  height_bottom : PlainF32 keeps s.height_bottom
  height_top : PlainF32 keeps s.height_top
  width_bottom : PlainF32 keeps s.width_bottom
  width_top : PlainF32 keeps s.width_top
  left_wall_height : PlainF32 keeps s.left_wall_height
  right_wall_height : PlainF32 keeps s.right_wall_height
  left_wall_height_visible : PlainF32 keeps s.left_wall_height_visible
  right_wall_height_visible : PlainF32 keeps s.right_wall_height_visible
  threshold : OptP (PlainF32 keeps) s.threshold
  elasticity : PlainF32 keeps s.elasticity
  friction : PlainF32 keeps s.friction
  scatter : PlainF32 keeps s.scatter
  depth_bias : PlainF32 keeps s.depth_bias
  wire_diameter : PlainF32 keeps s.wire_diameter
  wire_distance_x : PlainF32 keeps s.wire_distance_x
  wire_distance_y : PlainF32 keeps s.wire_distance_y
  drag_points : ∀ p ∈ s.drag_points, DragPoint.JsonOk keeps p

/-- a Reel without what its JSON form does not hold -/
def Reel.jsonPart (s : Reel) : Reel := { s with shared := { s.shared with is_locked := false, editor_layer := none, editor_layer_name := none, editor_layer_visibility := none } }

structure Reel.JsonOk (keeps : F32 → Prop) (s : Reel) : Prop where
  ver1 : Vertex2D.JsonOk keeps s.ver1
  ver2 : Vertex2D.JsonOk keeps s.ver2
  width : PlainF32 keeps s.width
  height : PlainF32 keeps s.height
  reel_count : PlainF32 keeps s.reel_count
  reel_spacing : PlainF32 keeps s.reel_spacing
  motor_steps : PlainF32 keeps s.motor_steps
  digit_range : PlainF32 keeps s.digit_range

/-- a LightSequencer without what its JSON form does not hold -/
def LightSequencer.jsonPart (s : LightSequencer) : LightSequencer := { s with is_locked := none, editor_layer := none, editor_layer_name := none, editor_layer_visibility := none }

structure LightSequencer.JsonOk (keeps : F32 → Prop) (s : LightSequencer) : Prop where
  center : Vertex2D.JsonOk keeps s.center
  pos_x : PlainF32 keeps s.pos_x
  pos_y : PlainF32 keeps s.pos_y

/-- a Primitive without what its JSON form does not hold -/
def Primitive.jsonPart (s : Primitive) : Primitive := { s with shared := { s.shared with is_locked := false, editor_layer := none, editor_layer_name := none, editor_layer_visibility := none }, num_vertices := none, compressed_vertices_len := none, compressed_vertices_data := none, num_indices := none, compressed_indices_len := none, compressed_indices_data := none, compressed_animation_vertices_len := none, compressed_animation_vertices_data := none }

structure Primitive.JsonOk (keeps : F32 → Prop) (s : Primitive) : Prop where
  position : Vertex3D.JsonOk keeps s.position
  size : Vertex3D.JsonOk keeps s.size
  rot_and_tra : ∀ x ∈ [s.rot_and_tra0, s.rot_and_tra1, s.rot_and_tra2, s.rot_and_tra3, s.rot_and_tra4, s.rot_and_tra5, s.rot_and_tra6, s.rot_and_tra7, s.rot_and_tra8], PlainF32 keeps x
  threshold : PlainF32 keeps s.threshold
  elasticity : PlainF32 keeps s.elasticity
  elasticity_falloff : PlainF32 keeps s.elasticity_falloff
  friction : PlainF32 keeps s.friction
  scatter : PlainF32 keeps s.scatter
  edge_factor_ui : PlainF32 keeps s.edge_factor_ui
  collision_reduction_factor : OptP (PlainF32 keeps) s.collision_reduction_factor
  disable_lighting_top_old : OptP (PlainF32 keeps) s.disable_lighting_top_old
  disable_lighting_top : OptP (PlainF32 keeps) s.disable_lighting_top
  disable_lighting_below : OptP (PlainF32 keeps) s.disable_lighting_below
  min_aa_bound : OptP (Vertex3D.JsonOk keeps) s.min_aa_bound
  max_aa_bound : OptP (Vertex3D.JsonOk keeps) s.max_aa_bound
  depth_bias : PlainF32 keeps s.depth_bias
  alpha : OptP (PlainF32 keeps) s.alpha
  reflection_strength : OptP (PlainF32 keeps) s.reflection_strength
  refraction_thickness : OptP (PlainF32 keeps) s.refraction_thickness

/-- a Flasher without what its JSON form does not hold -/
def Flasher.jsonPart (s : Flasher) : Flasher := { s with shared := { s.shared with is_locked := false, editor_layer := none, editor_layer_name := none, editor_layer_visibility := none } }

structure Flasher.JsonOk (keeps : F32 → Prop) (s : Flasher) : Prop where
  height : PlainF32 keeps s.height
  pos_x : PlainF32 keeps s.pos_x
  pos_y : PlainF32 keeps s.pos_y
  rot_x : PlainF32 keeps s.rot_x
  rot_y : PlainF32 keeps s.rot_y
  rot_z : PlainF32 keeps s.rot_z
  modulate_vs_add : PlainF32 keeps s.modulate_vs_add
  glass_roughness : OptP (PlainF32 keeps) s.glass_roughness
  glass_pad_top : OptP (PlainF32 keeps) s.glass_pad_top
  glass_pad_bottom : OptP (PlainF32 keeps) s.glass_pad_bottom
  glass_pad_left : OptP (PlainF32 keeps) s.glass_pad_left
  glass_pad_right : OptP (PlainF32 keeps) s.glass_pad_right
  depth_bias : PlainF32 keeps s.depth_bias
  drag_points : ∀ p ∈ s.drag_points, DragPoint.JsonOk keeps p

/-- a Rubber without what its JSON form does not hold -/
def Rubber.jsonPart (s : Rubber) : Rubber := { s with shared := { s.shared with is_locked := false, editor_layer := none, editor_layer_name := none, editor_layer_visibility := none } }

structure Rubber.JsonOk (keeps : F32 → Prop) (s : Rubber) : Prop where
  height : PlainF32 keeps s.height
  hit_height : OptP (PlainF32 keeps) s.hit_height
  elasticity : PlainF32 keeps s.elasticity
  elasticity_falloff : PlainF32 keeps s.elasticity_falloff
  friction : PlainF32 keeps s.friction
  scatter : PlainF32 keeps s.scatter
  radb : OptP (PlainF32 keeps) s.radb
  rot_x : PlainF32 keeps s.rot_x
  rot_y : PlainF32 keeps s.rot_y
  rot_z : PlainF32 keeps s.rot_z
  drag_points : ∀ p ∈ s.drag_points, DragPoint.JsonOk keeps p

/-- a HitTarget without what its JSON form does not hold -/
def HitTarget.jsonPart (s : HitTarget) : HitTarget := { s with shared := { s.shared with is_locked := false, editor_layer := none, editor_layer_name := none, editor_layer_visibility := none } }

structure HitTarget.JsonOk (keeps : F32 → Prop) (s : HitTarget) : Prop where
  position : Vertex3D.JsonOk keeps s.position
  size : Vertex3D.JsonOk keeps s.size
  rot_z : PlainF32 keeps s.rot_z
  threshold : PlainF32 keeps s.threshold
  elasticity : PlainF32 keeps s.elasticity
  elasticity_falloff : PlainF32 keeps s.elasticity_falloff
  friction : PlainF32 keeps s.friction
  scatter : PlainF32 keeps s.scatter
  disable_lighting_top_old : OptP (PlainF32 keeps) s.disable_lighting_top_old
  disable_lighting_top : OptP (PlainF32 keeps) s.disable_lighting_top
  disable_lighting_below : OptP (PlainF32 keeps) s.disable_lighting_below
  depth_bias : PlainF32 keeps s.depth_bias
  drop_speed : PlainF32 keeps s.drop_speed

/-- a Ball without what its JSON form does not hold -/
def Ball.jsonPart (s : Ball) : Ball := { s with shared := { s.shared with is_locked := false, editor_layer := none, editor_layer_name := none, editor_layer_visibility := none } }

structure Ball.JsonOk (keeps : F32 → Prop) (s : Ball) : Prop where
  pos : Vertex3D.JsonOk keeps s.pos
  radius : PlainF32 keeps s.radius
  mass : PlainF32 keeps s.mass
  bulb_intensity_scale : PlainF32 keeps s.bulb_intensity_scale
  playfield_reflection_strength : PlainF32 keeps s.playfield_reflection_strength

/-- all of a PartGroup is in its JSON form -/
def PartGroup.jsonPart (s : PartGroup) : PartGroup := s

structure PartGroup.JsonOk (keeps : F32 → Prop) (s : PartGroup) : Prop where
  center : Vertex2D.JsonOk keeps s.center

theorem DragPoint.sample_json : DragPoint.sample.JsonOk fun _ => True where
  x := by decide
  y := by decide
  z := by decide
  tex_coord := by decide

theorem Wall.sample_json : Wall.sample.JsonOk fun _ => True where
  threshold := by decide
  height_bottom := by decide
  height_top := by decide
  slingshot_force := by decide
  slingshot_threshold := by decide
  elasticity := by decide
  elasticity_falloff := by decide
  friction := by decide
  scatter := by decide
  disable_lighting_top_old := by decide +kernel
  disable_lighting_top := by decide +kernel
  disable_lighting_below := by decide +kernel
  drag_points := fun _ hp => List.mem_singleton.1 hp ▸ DragPoint.sample_json

theorem Flipper.sample_json : Flipper.sample.JsonOk fun _ => True where
  center := by decide
  base_radius := by decide
  end_radius := by decide
  flipper_radius_max := by decide
  return_ := by decide
  start_angle := by decide
  end_angle := by decide
  mass := by decide
  rubber_thickness := by decide
  rubber_height := by decide
  rubber_width := by decide
  strength := by decide
  elasticity := by decide
  elasticity_falloff := by decide
  friction := by decide
  ramp_up := by decide
  scatter := by decide
  torque_damping := by decide
  torque_damping_angle := by decide
  flipper_radius_min := by decide
  height := by decide

theorem Timer.sample_json : Timer.sample.JsonOk fun _ => True where
  center := by decide

theorem Plunger.sample_json : Plunger.sample.JsonOk fun _ => True where
  center := by decide
  width := by decide
  height := by decide
  z_adjust := by decide
  stroke := by decide
  speed_pull := by decide
  speed_fire := by decide
  mech_strength := by decide
  park_position := by decide
  scatter_velocity := by decide
  momentum_xfer := by decide
  rod_diam := by decide
  ring_gap := by decide
  ring_diam := by decide
  ring_width := by decide
  spring_diam := by decide
  spring_gauge := by decide
  spring_loops := by decide
  spring_end_loops := by decide

theorem TextBox.sample_json : TextBox.sample.JsonOk fun _ => True where
  ver1 := by decide
  ver2 := by decide
  intensity_scale := by decide

theorem Bumper.sample_json : Bumper.sample.JsonOk fun _ => True where
  center := by decide
  radius := by decide
  threshold := by decide
  force := by decide
  scatter := by decide
  height_scale := by decide
  ring_speed := by decide
  orientation := by decide
  ring_drop_offset := by decide

theorem Trigger.sample_json : Trigger.sample.JsonOk fun _ => True where
  center := by decide
  radius := by decide
  rotation := by decide
  wire_thickness := by decide
  scale_x := by decide
  scale_y := by decide
  hit_height := by decide
  anim_speed := by decide
  drag_points := fun _ hp => List.mem_singleton.1 hp ▸ DragPoint.sample_json

theorem Light.sample_json : Light.sample.JsonOk fun _ => True where
  center := by decide
  height := by decide
  falloff_radius := by decide
  falloff_power := by decide
  state := by decide
  intensity := by decide
  transmission_scale := by decide
  depth_bias := by decide
  fade_speed_up := by decide
  fade_speed_down := by decide
  mesh_radius := by decide
  bulb_modulate_vs_add := by decide
  bulb_halo_height := by decide
  drag_points := fun _ hp => List.mem_singleton.1 hp ▸ DragPoint.sample_json

theorem Kicker.sample_json : Kicker.sample.JsonOk fun _ => True where
  center := by decide
  radius := by decide
  scatter := by decide
  hit_accuracy := by decide
  hit_height := by decide
  orientation := by decide

theorem Decal.sample_json : Decal.sample.JsonOk fun _ => True where
  center := by decide
  width := by decide
  height := by decide
  rotation := by decide

theorem Gate.sample_json : Gate.sample.JsonOk fun _ => True where
  center := by decide
  length := by decide
  height := by decide
  rotation := by decide
  elasticity := by decide
  angle_max := by decide
  angle_min := by decide
  friction := by decide
  damping := by decide
  gravity_factor := by decide
  gate_type := by decide

theorem Spinner.sample_json : Spinner.sample.JsonOk fun _ => True where
  center := by decide
  rotation := by decide
  height := by decide
  length := by decide
  damping := by decide
  angle_max := by decide
  angle_min := by decide
  elasticity := by decide

theorem Ramp.sample_json : Ramp.sample.JsonOk fun _ => True where
  height_bottom := by decide
  height_top := by decide
  width_bottom := by decide
  width_top := by decide
  left_wall_height := by decide
  right_wall_height := by decide
  left_wall_height_visible := by decide
  right_wall_height_visible := by decide
  threshold := by decide
  elasticity := by decide
  friction := by decide
  scatter := by decide
  depth_bias := by decide
  wire_diameter := by decide
  wire_distance_x := by decide
  wire_distance_y := by decide
  drag_points := fun _ hp => List.mem_singleton.1 hp ▸ DragPoint.sample_json

theorem Reel.sample_json : Reel.sample.JsonOk fun _ => True where
  ver1 := by decide
  ver2 := by decide
  width := by decide
  height := by decide
  reel_count := by decide
  reel_spacing := by decide
  motor_steps := by decide
  digit_range := by decide

theorem LightSequencer.sample_json : LightSequencer.sample.JsonOk fun _ => True where
  center := by decide
  pos_x := by decide
  pos_y := by decide

theorem Primitive.sample_json : Primitive.sample.JsonOk fun _ => True where
  position := by decide
  size := by decide
  rot_and_tra := by decide
  threshold := by decide
  elasticity := by decide
  elasticity_falloff := by decide
  friction := by decide
  scatter := by decide
  edge_factor_ui := by decide
  collision_reduction_factor := by decide
  disable_lighting_top_old := by decide +kernel
  disable_lighting_top := by decide +kernel
  disable_lighting_below := by decide +kernel
  min_aa_bound := by decide
  max_aa_bound := by decide
  depth_bias := by decide
  alpha := by decide
  reflection_strength := by decide
  refraction_thickness := by decide

theorem Flasher.sample_json : Flasher.sample.JsonOk fun _ => True where
  height := by decide
  pos_x := by decide
  pos_y := by decide
  rot_x := by decide
  rot_y := by decide
  rot_z := by decide
  modulate_vs_add := by decide
  glass_roughness := by decide
  glass_pad_top := by decide
  glass_pad_bottom := by decide
  glass_pad_left := by decide
  glass_pad_right := by decide
  depth_bias := by decide
  drag_points := fun _ hp => List.mem_singleton.1 hp ▸ DragPoint.sample_json

theorem Rubber.sample_json : Rubber.sample.JsonOk fun _ => True where
  height := by decide
  hit_height := by decide
  elasticity := by decide
  elasticity_falloff := by decide
  friction := by decide
  scatter := by decide
  radb := by decide
  rot_x := by decide
  rot_y := by decide
  rot_z := by decide
  drag_points := fun _ hp => List.mem_singleton.1 hp ▸ DragPoint.sample_json

theorem HitTarget.sample_json : HitTarget.sample.JsonOk fun _ => True where
  position := by decide
  size := by decide
  rot_z := by decide
  threshold := by decide
  elasticity := by decide
  elasticity_falloff := by decide
  friction := by decide
  scatter := by decide
  disable_lighting_top_old := by decide +kernel
  disable_lighting_top := by decide +kernel
  disable_lighting_below := by decide +kernel
  depth_bias := by decide
  drop_speed := by decide

theorem Ball.sample_json : Ball.sample.JsonOk fun _ => True where
  pos := by decide
  radius := by decide
  mass := by decide
  bulb_intensity_scale := by decide
  playfield_reflection_strength := by decide

theorem PartGroup.sample_json : PartGroup.sample.JsonOk fun _ => True where
  center := by decide

end Vpin
