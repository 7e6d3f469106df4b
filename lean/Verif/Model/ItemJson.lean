import Verif.Model.Items.DragPoint
import Verif.Model.Items.Wall
import Verif.Model.Items.Flipper
import Verif.Model.Items.Timer
import Verif.Model.Items.Plunger
import Verif.Model.Items.TextBox
import Verif.Model.Items.Bumper
import Verif.Model.Items.Trigger
import Verif.Model.Items.Light
import Verif.Model.Items.Kicker
import Verif.Model.Items.Decal
import Verif.Model.Items.Gate
import Verif.Model.Items.Spinner
import Verif.Model.Items.Ramp
import Verif.Model.Items.Reel
import Verif.Model.Items.LightSequencer
import Verif.Model.Items.Primitive
import Verif.Model.Items.Flasher
import Verif.Model.Items.Rubber
import Verif.Model.Items.HitTarget
import Verif.Model.Items.Ball
import Verif.Model.Items.PartGroup
import Verif.Model.GameItem
import Verif.Model.JsonCodec
/-
The JSON forms of the game items: `XJson` of /repo/src/vpx/gameitem/*.rs with the conversions from and to `X`.
Generated by tools/gen_json.py from the source; each definition cites what it models.
-/
namespace Vpin

/-- `rot_and_tra: [f32; 9]` of `PrimitiveJson`: an array of nine numbers, /repo/src/vpx/gameitem/primitive.rs:470 -/
def rotAndTraField : JField Primitive where
  names := [key!"rot_and_tra"]
  get s := some ((jVec jF32).toJ [s.rot_and_tra0, s.rot_and_tra1, s.rot_and_tra2, s.rot_and_tra3, s.rot_and_tra4,
    s.rot_and_tra5, s.rot_and_tra6, s.rot_and_tra7, s.rot_and_tra8])
  set | none, _ => .error .io
      | some j, s => match (jVec jF32).ofJ j with
        | .ok [a0, a1, a2, a3, a4, a5, a6, a7, a8] =>
          .ok { s with rot_and_tra0 := a0, rot_and_tra1 := a1, rot_and_tra2 := a2, rot_and_tra3 := a3,
                       rot_and_tra4 := a4, rot_and_tra5 := a5, rot_and_tra6 := a6, rot_and_tra7 := a7,
                       rot_and_tra8 := a8 }
        | .ok _ => .error .io
        | .error e => .error e

/-- `DragPointJson`, /repo/src/vpx/gameitem/dragpoint.rs:37-51, filled by /repo/src/vpx/gameitem/dragpoint.rs:54-68 and read by
/repo/src/vpx/gameitem/dragpoint.rs:69-83 -/
def DragPoint.jsonFields : List (JField DragPoint) :=
  [.req [key!"x"] jF32 (·.x) fun v s => { s with x := v },
   .req [key!"y"] jF32 (·.y) fun v s => { s with y := v },
   .req [key!"z"] jF32 (·.z) fun v s => { s with z := v },
   .req [key!"smooth"] jBool (·.smooth) fun v s => { s with smooth := v },
   .opt [key!"is_slingshot"] jBool (·.is_slingshot) fun v s => { s with is_slingshot := v },
   .req [key!"has_auto_texture"] jBool (·.has_auto_texture) fun v s => { s with has_auto_texture := v },
   .req [key!"tex_coord"] jF32 (·.tex_coord) fun v s => { s with tex_coord := v },
   .req [key!"is_locked"] jBool (·.is_locked) fun v s => { s with is_locked := v },
   .opt [key!"editor_layer"] jU32 (·.editor_layer) fun v s => { s with editor_layer := v },
   .optSkip [key!"editor_layer_name"] jStr (·.editor_layer_name) fun v s => { s with editor_layer_name := v },
   .optSkip [key!"editor_layer_visibility"] jBool (·.editor_layer_visibility) fun v s => { s with editor_layer_visibility := v }]

/-- all fields are in the JSON form, /repo/src/vpx/gameitem/dragpoint.rs:37-51 -/
def DragPoint.jsonBase : DragPoint := DragPoint.default

/-- `Serialize` and `Deserialize` of `DragPoint`, /repo/src/vpx/gameitem/dragpoint.rs:37-51 -/
def jDragPoint : Codec DragPoint := jStruct DragPoint.jsonFields DragPoint.jsonBase

/-- `WallJson`, /repo/src/vpx/gameitem/wall.rs:98-134, filled by /repo/src/vpx/gameitem/wall.rs:137-173 and read by
/repo/src/vpx/gameitem/wall.rs:175-219 -/
def Wall.jsonFields : List (JField Wall) :=
  List.append [.req [key!"hit_event"] jBool (·.hit_event) fun v s => { s with hit_event := v },
   .req [key!"is_droppable"] jBool (·.is_droppable) fun v s => { s with is_droppable := v },
   .req [key!"is_flipbook"] jBool (·.is_flipbook) fun v s => { s with is_flipbook := v },
   .req [key!"is_bottom_solid"] jBool (·.is_bottom_solid) fun v s => { s with is_bottom_solid := v },
   .req [key!"is_collidable"] jBool (·.is_collidable) fun v s => { s with is_collidable := v }]
  (List.append (timerFields Wall.timerL)
  [.req [key!"threshold"] jF32 (·.threshold) fun v s => { s with threshold := v },
   .req [key!"image"] jStr (·.image) fun v s => { s with image := v },
   .req [key!"side_image"] jStr (·.side_image) fun v s => { s with side_image := v },
   .req [key!"side_material"] jStr (·.side_material) fun v s => { s with side_material := v },
   .req [key!"top_material"] jStr (·.top_material) fun v s => { s with top_material := v },
   .req [key!"slingshot_material"] jStr (·.slingshot_material) fun v s => { s with slingshot_material := v },
   .req [key!"height_bottom"] jF32 (·.height_bottom) fun v s => { s with height_bottom := v },
   .req [key!"height_top"] jF32 (·.height_top) fun v s => { s with height_top := v },
   .req [key!"name"] jStr (·.name) fun v s => { s with name := v },
   .req [key!"display_texture"] jBool (·.display_texture) fun v s => { s with display_texture := v },
   .req [key!"slingshot_force"] jF32 (·.slingshot_force) fun v s => { s with slingshot_force := v },
   .req [key!"slingshot_threshold"] jF32 (·.slingshot_threshold) fun v s => { s with slingshot_threshold := v },
   .req [key!"elasticity"] jF32 (·.elasticity) fun v s => { s with elasticity := v },
   .opt [key!"elasticity_falloff"] jF32 (·.elasticity_falloff) fun v s => { s with elasticity_falloff := v },
   .req [key!"friction"] jF32 (·.friction) fun v s => { s with friction := v },
   .req [key!"scatter"] jF32 (·.scatter) fun v s => { s with scatter := v },
   .req [key!"is_top_bottom_visible"] jBool (·.is_top_bottom_visible) fun v s => { s with is_top_bottom_visible := v },
   .req [key!"slingshot_animation"] jBool (·.slingshot_animation) fun v s => { s with slingshot_animation := v },
   .req [key!"is_side_visible"] jBool (·.is_side_visible) fun v s => { s with is_side_visible := v },
   .opt [key!"disable_lighting_top_old"] jF32 (·.disable_lighting_top_old) fun v s => { s with disable_lighting_top_old := v },
   .opt [key!"disable_lighting_top"] jF32 (·.disable_lighting_top) fun v s => { s with disable_lighting_top := v },
   .opt [key!"disable_lighting_below"] jF32 (·.disable_lighting_below) fun v s => { s with disable_lighting_below := v },
   .opt [key!"is_reflection_enabled"] jBool (·.is_reflection_enabled) fun v s => { s with is_reflection_enabled := v },
   .opt [key!"physics_material"] jStr (·.physics_material) fun v s => { s with physics_material := v },
   .opt [key!"overwrite_physics"] jBool (·.overwrite_physics) fun v s => { s with overwrite_physics := v },
   .req [key!"drag_points"] (jVec jDragPoint) (·.drag_points) fun v s => { s with drag_points := v },
   .optSkip [key!"part_group_name"] jStr (·.shared.part_group_name) fun v s => { s with shared := { s.shared with part_group_name := v } }])

/-- the fields that are not in the JSON form, /repo/src/vpx/gameitem/wall.rs:175-219 -/
def Wall.jsonBase : Wall := { Wall.default with shared := { SharedAttrs.default with is_locked := false, editor_layer := none, editor_layer_name := none, editor_layer_visibility := none } }

/-- `Serialize` and `Deserialize` of `Wall`, /repo/src/vpx/gameitem/wall.rs:98-134 -/
def jWall : Codec Wall := jStruct Wall.jsonFields Wall.jsonBase

/-- `FlipperJson`, /repo/src/vpx/gameitem/flipper.rs:335-374, filled by /repo/src/vpx/gameitem/flipper.rs:377-415 and read by
/repo/src/vpx/gameitem/flipper.rs:417-463 -/
def Flipper.jsonFields : List (JField Flipper) :=
  List.append [.req [key!"center"] jVertex2D (·.center) fun v s => { s with center := v },
   .req [key!"base_radius"] jF32 (·.base_radius) fun v s => { s with base_radius := v },
   .req [key!"end_radius"] jF32 (·.end_radius) fun v s => { s with end_radius := v },
   .req [key!"flipper_radius_max"] jF32 (·.flipper_radius_max) fun v s => { s with flipper_radius_max := v },
   .req [key!"return", key!"return_"] jF32 (·.return_) fun v s => { s with return_ := v },
   .req [key!"start_angle"] jF32 (·.start_angle) fun v s => { s with start_angle := v },
   .req [key!"end_angle"] jF32 (·.end_angle) fun v s => { s with end_angle := v },
   .req [key!"override_physics"] jU32 (·.override_physics) fun v s => { s with override_physics := v },
   .req [key!"mass"] jF32 (·.mass) fun v s => { s with mass := v }]
  (List.append (timerFields Flipper.timerL)
  [.req [key!"surface"] jStr (·.surface) fun v s => { s with surface := v },
   .req [key!"material"] jStr (·.material) fun v s => { s with material := v },
   .req [key!"name"] jStr (·.name) fun v s => { s with name := v },
   .req [key!"rubber_material"] jStr (·.rubber_material) fun v s => { s with rubber_material := v },
   .req [key!"rubber_thickness_int"] jU32 (·.rubber_thickness_int) fun v s => { s with rubber_thickness_int := v },
   .opt [key!"rubber_thickness"] jF32 (·.rubber_thickness) fun v s => { s with rubber_thickness := v },
   .req [key!"rubber_height_int"] jU32 (·.rubber_height_int) fun v s => { s with rubber_height_int := v },
   .opt [key!"rubber_height"] jF32 (·.rubber_height) fun v s => { s with rubber_height := v },
   .req [key!"rubber_width_int"] jU32 (·.rubber_width_int) fun v s => { s with rubber_width_int := v },
   .opt [key!"rubber_width"] jF32 (·.rubber_width) fun v s => { s with rubber_width := v },
   .req [key!"strength"] jF32 (·.strength) fun v s => { s with strength := v },
   .req [key!"elasticity"] jF32 (·.elasticity) fun v s => { s with elasticity := v },
   .req [key!"elasticity_falloff"] jF32 (·.elasticity_falloff) fun v s => { s with elasticity_falloff := v },
   .req [key!"friction"] jF32 (·.friction) fun v s => { s with friction := v },
   .req [key!"ramp_up"] jF32 (·.ramp_up) fun v s => { s with ramp_up := v },
   .opt [key!"scatter"] jF32 (·.scatter) fun v s => { s with scatter := v },
   .opt [key!"torque_damping"] jF32 (·.torque_damping) fun v s => { s with torque_damping := v },
   .opt [key!"torque_damping_angle"] jF32 (·.torque_damping_angle) fun v s => { s with torque_damping_angle := v },
   .req [key!"flipper_radius_min"] jF32 (·.flipper_radius_min) fun v s => { s with flipper_radius_min := v },
   .req [key!"is_visible"] jBool (·.is_visible) fun v s => { s with is_visible := v },
   .req [key!"is_enabled"] jBool (·.is_enabled) fun v s => { s with is_enabled := v },
   .req [key!"height"] jF32 (·.height) fun v s => { s with height := v },
   .opt [key!"image"] jStr (·.image) fun v s => { s with image := v },
   .opt [key!"is_reflection_enabled"] jBool (·.is_reflection_enabled) fun v s => { s with is_reflection_enabled := v },
   .optSkip [key!"part_group_name"] jStr (·.shared.part_group_name) fun v s => { s with shared := { s.shared with part_group_name := v } }])

/-- the fields that are not in the JSON form, /repo/src/vpx/gameitem/flipper.rs:417-463 -/
def Flipper.jsonBase : Flipper := { Flipper.default with shared := { SharedAttrs.default with is_locked := false, editor_layer := none, editor_layer_name := none, editor_layer_visibility := none } }

/-- `Serialize` and `Deserialize` of `Flipper`, /repo/src/vpx/gameitem/flipper.rs:335-374 -/
def jFlipper : Codec Flipper := jStruct Flipper.jsonFields Flipper.jsonBase

/-- `TimerJson`, /repo/src/vpx/gameitem/timer.rs:31-39, filled by /repo/src/vpx/gameitem/timer.rs:42-50 and read by
/repo/src/vpx/gameitem/timer.rs:51-67 -/
def Timer.jsonFields : List (JField Timer) :=
  List.append [.req [key!"center"] jVertex2D (·.center) fun v s => { s with center := v }]
  (List.append (timerFields Timer.timerL)
  [.req [key!"name"] jStr (·.name) fun v s => { s with name := v },
   .req [key!"backglass"] jBool (·.backglass) fun v s => { s with backglass := v },
   .optSkip [key!"part_group_name"] jStr (·.shared.part_group_name) fun v s => { s with shared := { s.shared with part_group_name := v } }])

/-- the fields that are not in the JSON form, /repo/src/vpx/gameitem/timer.rs:51-67 -/
def Timer.jsonBase : Timer := { Timer.default with shared := { SharedAttrs.default with is_locked := false, editor_layer := none, editor_layer_name := none, editor_layer_visibility := none } }

/-- `Serialize` and `Deserialize` of `Timer`, /repo/src/vpx/gameitem/timer.rs:31-39 -/
def jTimer : Codec Timer := jStruct Timer.jsonFields Timer.jsonBase

/-- `PlungerJson`, /repo/src/vpx/gameitem/plunger.rs:215-250, filled by /repo/src/vpx/gameitem/plunger.rs:253-288 and read by
/repo/src/vpx/gameitem/plunger.rs:290-333 -/
def Plunger.jsonFields : List (JField Plunger) :=
  List.append [.req [key!"center"] jVertex2D (·.center) fun v s => { s with center := v },
   .req [key!"width"] jF32 (·.width) fun v s => { s with width := v },
   .req [key!"height"] jF32 (·.height) fun v s => { s with height := v },
   .req [key!"z_adjust"] jF32 (·.z_adjust) fun v s => { s with z_adjust := v },
   .req [key!"stroke"] jF32 (·.stroke) fun v s => { s with stroke := v },
   .req [key!"speed_pull"] jF32 (·.speed_pull) fun v s => { s with speed_pull := v },
   .req [key!"speed_fire"] jF32 (·.speed_fire) fun v s => { s with speed_fire := v },
   .req [key!"plunger_type"] ⟨PlungerType.toJ, PlungerType.ofJ⟩ (·.plunger_type) fun v s => { s with plunger_type := v },
   .req [key!"anim_frames"] jU32 (·.anim_frames) fun v s => { s with anim_frames := v },
   .req [key!"material"] jStr (·.material) fun v s => { s with material := v },
   .req [key!"image"] jStr (·.image) fun v s => { s with image := v },
   .req [key!"mech_strength"] jF32 (·.mech_strength) fun v s => { s with mech_strength := v },
   .req [key!"is_mech_plunger"] jBool (·.is_mech_plunger) fun v s => { s with is_mech_plunger := v },
   .req [key!"auto_plunger"] jBool (·.auto_plunger) fun v s => { s with auto_plunger := v },
   .req [key!"park_position"] jF32 (·.park_position) fun v s => { s with park_position := v },
   .req [key!"scatter_velocity"] jF32 (·.scatter_velocity) fun v s => { s with scatter_velocity := v },
   .req [key!"momentum_xfer"] jF32 (·.momentum_xfer) fun v s => { s with momentum_xfer := v }]
  (List.append (timerFields Plunger.timerL)
  [.req [key!"is_visible"] jBool (·.is_visible) fun v s => { s with is_visible := v },
   .opt [key!"is_reflection_enabled"] jBool (·.is_reflection_enabled) fun v s => { s with is_reflection_enabled := v },
   .req [key!"surface"] jStr (·.surface) fun v s => { s with surface := v },
   .req [key!"name"] jStr (·.name) fun v s => { s with name := v },
   .req [key!"tip_shape"] jStr (·.tip_shape) fun v s => { s with tip_shape := v },
   .req [key!"rod_diam"] jF32 (·.rod_diam) fun v s => { s with rod_diam := v },
   .req [key!"ring_gap"] jF32 (·.ring_gap) fun v s => { s with ring_gap := v },
   .req [key!"ring_diam"] jF32 (·.ring_diam) fun v s => { s with ring_diam := v },
   .req [key!"ring_width"] jF32 (·.ring_width) fun v s => { s with ring_width := v },
   .req [key!"spring_diam"] jF32 (·.spring_diam) fun v s => { s with spring_diam := v },
   .req [key!"spring_gauge"] jF32 (·.spring_gauge) fun v s => { s with spring_gauge := v },
   .req [key!"spring_loops"] jF32 (·.spring_loops) fun v s => { s with spring_loops := v },
   .req [key!"spring_end_loops"] jF32 (·.spring_end_loops) fun v s => { s with spring_end_loops := v },
   .optSkip [key!"part_group_name"] jStr (·.shared.part_group_name) fun v s => { s with shared := { s.shared with part_group_name := v } }])

/-- the fields that are not in the JSON form, /repo/src/vpx/gameitem/plunger.rs:290-333 -/
def Plunger.jsonBase : Plunger := { Plunger.default with shared := { SharedAttrs.default with is_locked := false, editor_layer := none, editor_layer_name := none, editor_layer_visibility := none } }

/-- `Serialize` and `Deserialize` of `Plunger`, /repo/src/vpx/gameitem/plunger.rs:43-55 -/
def jPlunger : Codec Plunger := jStruct Plunger.jsonFields Plunger.jsonBase

/-- `TextBoxJson`, /repo/src/vpx/gameitem/textbox.rs:141-157, filled by /repo/src/vpx/gameitem/textbox.rs:160-176 and read by
/repo/src/vpx/gameitem/textbox.rs:178-202 -/
def TextBox.jsonFields : List (JField TextBox) :=
  List.append [.req [key!"ver1"] jVertex2D (·.ver1) fun v s => { s with ver1 := v },
   .req [key!"ver2"] jVertex2D (·.ver2) fun v s => { s with ver2 := v },
   .req [key!"back_color"] jColor (·.back_color) fun v s => { s with back_color := v },
   .req [key!"font_color"] jColor (·.font_color) fun v s => { s with font_color := v },
   .req [key!"intensity_scale"] jF32 (·.intensity_scale) fun v s => { s with intensity_scale := v },
   .req [key!"text"] jStr (·.text) fun v s => { s with text := v }]
  (List.append (timerFields TextBox.timerL)
  [.req [key!"name"] jStr (·.name) fun v s => { s with name := v },
   .req [key!"align"] ⟨TextAlignment.toJ, TextAlignment.ofJ⟩ (·.align) fun v s => { s with align := v },
   .req [key!"is_transparent"] jBool (·.is_transparent) fun v s => { s with is_transparent := v },
   .opt [key!"is_dmd"] jBool (·.is_dmd) fun v s => { s with is_dmd := v },
   .req [key!"font"] jFont (·.font) fun v s => { s with font := v },
   .optSkip [key!"part_group_name"] jStr (·.shared.part_group_name) fun v s => { s with shared := { s.shared with part_group_name := v } }])

/-- the fields that are not in the JSON form, /repo/src/vpx/gameitem/textbox.rs:178-202 -/
def TextBox.jsonBase : TextBox := { TextBox.default with shared := { SharedAttrs.default with is_locked := false, editor_layer := none, editor_layer_name := none, editor_layer_visibility := none } }

/-- `Serialize` and `Deserialize` of `TextBox`, /repo/src/vpx/gameitem/textbox.rs:141-157 -/
def jTextBox : Codec TextBox := jStruct TextBox.jsonFields TextBox.jsonBase

/-- `BumperJson`, /repo/src/vpx/gameitem/bumper.rs:67-97, filled by /repo/src/vpx/gameitem/bumper.rs:100-127 and read by
/repo/src/vpx/gameitem/bumper.rs:176-216 -/
def Bumper.jsonFields : List (JField Bumper) :=
  List.append [.req [key!"center"] jVertex2D (·.center) fun v s => { s with center := v },
   .req [key!"radius"] jF32 (·.radius) fun v s => { s with radius := v }]
  (List.append (timerFields Bumper.timerL)
  [.req [key!"threshold"] jF32 (·.threshold) fun v s => { s with threshold := v },
   .req [key!"force"] jF32 (·.force) fun v s => { s with force := v },
   .opt [key!"scatter"] jF32 (·.scatter) fun v s => { s with scatter := v },
   .req [key!"height_scale"] jF32 (·.height_scale) fun v s => { s with height_scale := v },
   .req [key!"ring_speed"] jF32 (·.ring_speed) fun v s => { s with ring_speed := v },
   .req [key!"orientation"] jF32 (·.orientation) fun v s => { s with orientation := v },
   .opt [key!"ring_drop_offset"] jNanInf (·.ring_drop_offset) fun v s => { s with ring_drop_offset := v },
   .req [key!"cap_material"] jStr (·.cap_material) fun v s => { s with cap_material := v },
   .req [key!"base_material"] jStr (·.base_material) fun v s => { s with base_material := v },
   .req [key!"socket_material"] jStr (·.socket_material) fun v s => { s with socket_material := v },
   .opt [key!"ring_material"] jStr (·.ring_material) fun v s => { s with ring_material := v },
   .req [key!"surface"] jStr (·.surface) fun v s => { s with surface := v },
   .req [key!"name"] jStr (·.name) fun v s => { s with name := v },
   .req [key!"is_cap_visible"] jBool (·.is_cap_visible) fun v s => { s with is_cap_visible := v },
   .req [key!"is_base_visible"] jBool (·.is_base_visible) fun v s => { s with is_base_visible := v },
   .opt [key!"is_ring_visible"] jBool (·.is_ring_visible) fun v s => { s with is_ring_visible := v },
   .opt [key!"is_socket_visible"] jBool (·.is_socket_visible) fun v s => { s with is_socket_visible := v },
   .opt [key!"hit_event"] jBool (·.hit_event) fun v s => { s with hit_event := v },
   .opt [key!"is_collidable"] jBool (·.is_collidable) fun v s => { s with is_collidable := v },
   .opt [key!"is_reflection_enabled"] jBool (·.is_reflection_enabled) fun v s => { s with is_reflection_enabled := v },
   .optSkip [key!"part_group_name"] jStr (·.shared.part_group_name) fun v s => { s with shared := { s.shared with part_group_name := v } }])

/-- the fields that are not in the JSON form, /repo/src/vpx/gameitem/bumper.rs:176-216 -/
def Bumper.jsonBase : Bumper := { Bumper.default with shared := { SharedAttrs.default with is_locked := false, editor_layer := none, editor_layer_name := none, editor_layer_visibility := none } }

/-- `Serialize` and `Deserialize` of `Bumper`, /repo/src/vpx/gameitem/bumper.rs:67-97 -/
def jBumper : Codec Bumper := jStruct Bumper.jsonFields Bumper.jsonBase

/-- `TriggerJson`, /repo/src/vpx/gameitem/trigger.rs:244-265, filled by /repo/src/vpx/gameitem/trigger.rs:268-289 and read by
/repo/src/vpx/gameitem/trigger.rs:290-319 -/
def Trigger.jsonFields : List (JField Trigger) :=
  List.append [.req [key!"center"] jVertex2D (·.center) fun v s => { s with center := v },
   .req [key!"radius"] jF32 (·.radius) fun v s => { s with radius := v },
   .req [key!"rotation"] jF32 (·.rotation) fun v s => { s with rotation := v },
   .opt [key!"wire_thickness"] jF32 (·.wire_thickness) fun v s => { s with wire_thickness := v },
   .req [key!"scale_x"] jF32 (·.scale_x) fun v s => { s with scale_x := v },
   .req [key!"scale_y"] jF32 (·.scale_y) fun v s => { s with scale_y := v }]
  (List.append (timerFields Trigger.timerL)
  [.req [key!"material"] jStr (·.material) fun v s => { s with material := v },
   .req [key!"surface"] jStr (·.surface) fun v s => { s with surface := v },
   .req [key!"is_visible"] jBool (·.is_visible) fun v s => { s with is_visible := v },
   .req [key!"is_enabled"] jBool (·.is_enabled) fun v s => { s with is_enabled := v },
   .req [key!"hit_height"] jF32 (·.hit_height) fun v s => { s with hit_height := v },
   .req [key!"name"] jStr (·.name) fun v s => { s with name := v },
   .req [key!"shape"] ⟨TriggerShape.toJ, TriggerShape.ofJ⟩ (·.shape) fun v s => { s with shape := v },
   .req [key!"anim_speed"] jF32 (·.anim_speed) fun v s => { s with anim_speed := v },
   .opt [key!"is_reflection_enabled"] jBool (·.is_reflection_enabled) fun v s => { s with is_reflection_enabled := v },
   .optSkip [key!"part_group_name"] jStr (·.shared.part_group_name) fun v s => { s with shared := { s.shared with part_group_name := v } },
   .req [key!"drag_points"] (jVec jDragPoint) (·.drag_points) fun v s => { s with drag_points := v }])

/-- the fields that are not in the JSON form, /repo/src/vpx/gameitem/trigger.rs:290-319 -/
def Trigger.jsonBase : Trigger := { Trigger.default with shared := { SharedAttrs.default with is_locked := false, editor_layer := none, editor_layer_name := none, editor_layer_visibility := none } }

/-- `Serialize` and `Deserialize` of `Trigger`, /repo/src/vpx/gameitem/trigger.rs:63-80 -/
def jTrigger : Codec Trigger := jStruct Trigger.jsonFields Trigger.jsonBase

/-- `LightJson`, /repo/src/vpx/gameitem/light.rs:708-746, filled by /repo/src/vpx/gameitem/light.rs:749-785 and read by
/repo/src/vpx/gameitem/light.rs:787-831 -/
def Light.jsonFields : List (JField Light) :=
  List.append [.req [key!"center"] jVertex2D (·.center) fun v s => { s with center := v },
   .opt [key!"height"] jF32 (·.height) fun v s => { s with height := v },
   .req [key!"falloff_radius"] jF32 (·.falloff_radius) fun v s => { s with falloff_radius := v },
   .req [key!"falloff_power"] jF32 (·.falloff_power) fun v s => { s with falloff_power := v },
   .req [key!"state_u32"] jU32 (·.state_u32) fun v s => { s with state_u32 := v },
   .opt [key!"state"] jF32 (·.state) fun v s => { s with state := v },
   .req [key!"color"] jColor (·.color) fun v s => { s with color := v },
   .req [key!"color2"] jColor (·.color2) fun v s => { s with color2 := v }]
  (List.append (timerFields Light.timerL)
  [.req [key!"blink_pattern"] jStr (·.blink_pattern) fun v s => { s with blink_pattern := v },
   .req [key!"image", key!"off_image"] jStr (·.image) fun v s => { s with image := v },
   .req [key!"blink_interval"] jU32 (·.blink_interval) fun v s => { s with blink_interval := v },
   .req [key!"intensity"] jF32 (·.intensity) fun v s => { s with intensity := v },
   .req [key!"transmission_scale"] jF32 (·.transmission_scale) fun v s => { s with transmission_scale := v },
   .req [key!"surface"] jStr (·.surface) fun v s => { s with surface := v },
   .req [key!"name"] jStr (·.name) fun v s => { s with name := v },
   .req [key!"is_backglass"] jBool (·.is_backglass) fun v s => { s with is_backglass := v },
   .req [key!"depth_bias"] jF32 (·.depth_bias) fun v s => { s with depth_bias := v },
   .req [key!"fade_speed_up"] jNanInf (·.fade_speed_up) fun v s => { s with fade_speed_up := v },
   .req [key!"fade_speed_down"] jNanInf (·.fade_speed_down) fun v s => { s with fade_speed_down := v },
   .req [key!"is_bulb_light"] jBool (·.is_bulb_light) fun v s => { s with is_bulb_light := v },
   .req [key!"is_image_mode"] jBool (·.is_image_mode) fun v s => { s with is_image_mode := v },
   .req [key!"show_bulb_mesh"] jBool (·.show_bulb_mesh) fun v s => { s with show_bulb_mesh := v },
   .opt [key!"has_static_bulb_mesh"] jBool (·.has_static_bulb_mesh) fun v s => { s with has_static_bulb_mesh := v },
   .req [key!"show_reflection_on_ball"] jBool (·.show_reflection_on_ball) fun v s => { s with show_reflection_on_ball := v },
   .req [key!"mesh_radius"] jF32 (·.mesh_radius) fun v s => { s with mesh_radius := v },
   .req [key!"bulb_modulate_vs_add"] jF32 (·.bulb_modulate_vs_add) fun v s => { s with bulb_modulate_vs_add := v },
   .req [key!"bulb_halo_height"] jF32 (·.bulb_halo_height) fun v s => { s with bulb_halo_height := v },
   .opt [key!"shadows"] ⟨ShadowMode.toJ, ShadowMode.ofJ⟩ (·.shadows) fun v s => { s with shadows := v },
   .opt [key!"fader"] ⟨Fader.toJ, Fader.ofJ⟩ (·.fader) fun v s => { s with fader := v },
   .opt [key!"visible"] jBool (·.visible) fun v s => { s with visible := v },
   .optSkip [key!"part_group_name"] jStr (·.shared.part_group_name) fun v s => { s with shared := { s.shared with part_group_name := v } },
   .req [key!"drag_points"] (jVec jDragPoint) (·.drag_points) fun v s => { s with drag_points := v }])

/-- the fields that are not in the JSON form, /repo/src/vpx/gameitem/light.rs:787-831 -/
def Light.jsonBase : Light := { Light.default with shared := { SharedAttrs.default with is_locked := false, editor_layer := none, editor_layer_name := none, editor_layer_visibility := none } }

/-- `Serialize` and `Deserialize` of `Light`, /repo/src/vpx/gameitem/light.rs:708-746 -/
def jLight : Codec Light := jStruct Light.jsonFields Light.jsonBase

/-- `KickerJson`, /repo/src/vpx/gameitem/kicker.rs:172-190, filled by /repo/src/vpx/gameitem/kicker.rs:193-211 and read by
/repo/src/vpx/gameitem/kicker.rs:213-239 -/
def Kicker.jsonFields : List (JField Kicker) :=
  List.append [.req [key!"center"] jVertex2D (·.center) fun v s => { s with center := v },
   .req [key!"radius"] jF32 (·.radius) fun v s => { s with radius := v }]
  (List.append (timerFields Kicker.timerL)
  [.req [key!"material"] jStr (·.material) fun v s => { s with material := v },
   .req [key!"surface"] jStr (·.surface) fun v s => { s with surface := v },
   .req [key!"is_enabled"] jBool (·.is_enabled) fun v s => { s with is_enabled := v },
   .req [key!"name"] jStr (·.name) fun v s => { s with name := v },
   .req [key!"kicker_type"] ⟨KickerType.toJ, KickerType.ofJ⟩ (·.kicker_type) fun v s => { s with kicker_type := v },
   .req [key!"scatter"] jF32 (·.scatter) fun v s => { s with scatter := v },
   .req [key!"hit_accuracy"] jF32 (·.hit_accuracy) fun v s => { s with hit_accuracy := v },
   .opt [key!"hit_height"] jF32 (·.hit_height) fun v s => { s with hit_height := v },
   .req [key!"orientation"] jF32 (·.orientation) fun v s => { s with orientation := v },
   .req [key!"fall_through"] jBool (·.fall_through) fun v s => { s with fall_through := v },
   .req [key!"legacy_mode"] jBool (·.legacy_mode) fun v s => { s with legacy_mode := v },
   .optSkip [key!"part_group_name"] jStr (·.shared.part_group_name) fun v s => { s with shared := { s.shared with part_group_name := v } }])

/-- the fields that are not in the JSON form, /repo/src/vpx/gameitem/kicker.rs:213-239 -/
def Kicker.jsonBase : Kicker := { Kicker.default with shared := { SharedAttrs.default with is_locked := false, editor_layer := none, editor_layer_name := none, editor_layer_visibility := none } }

/-- `Serialize` and `Deserialize` of `Kicker`, /repo/src/vpx/gameitem/kicker.rs:50-66 -/
def jKicker : Codec Kicker := jStruct Kicker.jsonFields Kicker.jsonBase

/-- `DecalJson`, /repo/src/vpx/gameitem/decal.rs:201-219, filled by /repo/src/vpx/gameitem/decal.rs:222-241 and read by
/repo/src/vpx/gameitem/decal.rs:243-270 -/
def Decal.jsonFields : List (JField Decal) :=
  [.req [key!"center"] jVertex2D (·.center) fun v s => { s with center := v },
   .req [key!"width"] jF32 (·.width) fun v s => { s with width := v },
   .req [key!"height"] jF32 (·.height) fun v s => { s with height := v },
   .req [key!"rotation"] jF32 (·.rotation) fun v s => { s with rotation := v },
   .req [key!"image"] jStr (·.image) fun v s => { s with image := v },
   .req [key!"surface"] jStr (·.surface) fun v s => { s with surface := v },
   .req [key!"name"] jStr (·.name) fun v s => { s with name := v },
   .req [key!"text"] jStr (·.text) fun v s => { s with text := v },
   .req [key!"decal_type"] ⟨DecalType.toJ, DecalType.ofJ⟩ (·.decal_type) fun v s => { s with decal_type := v },
   .req [key!"material"] jStr (·.material) fun v s => { s with material := v },
   .req [key!"color"] jColor (·.color) fun v s => { s with color := v },
   .req [key!"sizing_type"] ⟨SizingType.toJ, SizingType.ofJ⟩ (·.sizing_type) fun v s => { s with sizing_type := v },
   .req [key!"vertical_text"] jBool (·.vertical_text) fun v s => { s with vertical_text := v },
   .req [key!"backglass"] jBool (·.backglass) fun v s => { s with backglass := v },
   .optSkip [key!"part_group_name"] jStr (·.shared.part_group_name) fun v s => { s with shared := { s.shared with part_group_name := v } },
   .req [key!"font"] jFont (·.font) fun v s => { s with font := v }]

/-- the fields that are not in the JSON form, /repo/src/vpx/gameitem/decal.rs:243-270 -/
def Decal.jsonBase : Decal := { Decal.default with shared := { SharedAttrs.default with is_locked := false, editor_layer := none, editor_layer_name := none, editor_layer_visibility := none } }

/-- `Serialize` and `Deserialize` of `Decal`, /repo/src/vpx/gameitem/decal.rs:47-58 -/
def jDecal : Codec Decal := jStruct Decal.jsonFields Decal.jsonBase

/-- `GateJson`, /repo/src/vpx/gameitem/gate.rs:235-261, filled by /repo/src/vpx/gameitem/gate.rs:264-290 and read by
/repo/src/vpx/gameitem/gate.rs:291-325 -/
def Gate.jsonFields : List (JField Gate) :=
  List.append [.req [key!"center"] jVertex2D (·.center) fun v s => { s with center := v },
   .req [key!"length"] jF32 (·.length) fun v s => { s with length := v },
   .req [key!"height"] jF32 (·.height) fun v s => { s with height := v },
   .req [key!"rotation"] jF32 (·.rotation) fun v s => { s with rotation := v },
   .req [key!"material"] jStr (·.material) fun v s => { s with material := v }]
  (List.append (timerFields Gate.timerL)
  [.req [key!"show_bracket"] jBool (·.show_bracket) fun v s => { s with show_bracket := v },
   .req [key!"is_collidable"] jBool (·.is_collidable) fun v s => { s with is_collidable := v },
   .opt [key!"imgf"] jStr (·.imgf) fun v s => { s with imgf := v },
   .opt [key!"imgb"] jStr (·.imgb) fun v s => { s with imgb := v },
   .req [key!"surface"] jStr (·.surface) fun v s => { s with surface := v },
   .req [key!"elasticity"] jF32 (·.elasticity) fun v s => { s with elasticity := v },
   .req [key!"angle_max"] jF32 (·.angle_max) fun v s => { s with angle_max := v },
   .req [key!"angle_min"] jF32 (·.angle_min) fun v s => { s with angle_min := v },
   .req [key!"friction"] jF32 (·.friction) fun v s => { s with friction := v },
   .opt [key!"damping"] jF32 (·.damping) fun v s => { s with damping := v },
   .opt [key!"gravity_factor"] jF32 (·.gravity_factor) fun v s => { s with gravity_factor := v },
   .req [key!"is_visible"] jBool (·.is_visible) fun v s => { s with is_visible := v },
   .req [key!"name"] jStr (·.name) fun v s => { s with name := v },
   .req [key!"two_way"] jBool (·.two_way) fun v s => { s with two_way := v },
   .opt [key!"is_reflection_enabled"] jBool (·.is_reflection_enabled) fun v s => { s with is_reflection_enabled := v },
   .opt [key!"gate_type"] ⟨GateType.toJ, GateType.ofJ⟩ (·.gate_type) fun v s => { s with gate_type := v },
   .optSkip [key!"part_group_name"] jStr (·.shared.part_group_name) fun v s => { s with shared := { s.shared with part_group_name := v } }])

/-- the fields that are not in the JSON form, /repo/src/vpx/gameitem/gate.rs:291-325 -/
def Gate.jsonBase : Gate := { Gate.default with shared := { SharedAttrs.default with is_locked := false, editor_layer := none, editor_layer_name := none, editor_layer_visibility := none } }

/-- `Serialize` and `Deserialize` of `Gate`, /repo/src/vpx/gameitem/gate.rs:65-78 -/
def jGate : Codec Gate := jStruct Gate.jsonFields Gate.jsonBase

/-- `SpinnerJson`, /repo/src/vpx/gameitem/spinner.rs:140-160, filled by /repo/src/vpx/gameitem/spinner.rs:163-183 and read by
/repo/src/vpx/gameitem/spinner.rs:185-213 -/
def Spinner.jsonFields : List (JField Spinner) :=
  List.append [.req [key!"center"] jVertex2D (·.center) fun v s => { s with center := v },
   .req [key!"rotation"] jF32 (·.rotation) fun v s => { s with rotation := v }]
  (List.append (timerFields Spinner.timerL)
  [.req [key!"height"] jF32 (·.height) fun v s => { s with height := v },
   .req [key!"length"] jF32 (·.length) fun v s => { s with length := v },
   .req [key!"damping"] jF32 (·.damping) fun v s => { s with damping := v },
   .req [key!"angle_max"] jF32 (·.angle_max) fun v s => { s with angle_max := v },
   .req [key!"angle_min"] jF32 (·.angle_min) fun v s => { s with angle_min := v },
   .req [key!"elasticity"] jF32 (·.elasticity) fun v s => { s with elasticity := v },
   .req [key!"is_visible"] jBool (·.is_visible) fun v s => { s with is_visible := v },
   .req [key!"show_bracket"] jBool (·.show_bracket) fun v s => { s with show_bracket := v },
   .req [key!"material"] jStr (·.material) fun v s => { s with material := v },
   .req [key!"image"] jStr (·.image) fun v s => { s with image := v },
   .req [key!"surface"] jStr (·.surface) fun v s => { s with surface := v },
   .req [key!"name"] jStr (·.name) fun v s => { s with name := v },
   .opt [key!"is_reflection_enabled"] jBool (·.is_reflection_enabled) fun v s => { s with is_reflection_enabled := v },
   .optSkip [key!"part_group_name"] jStr (·.shared.part_group_name) fun v s => { s with shared := { s.shared with part_group_name := v } }])

/-- the fields that are not in the JSON form, /repo/src/vpx/gameitem/spinner.rs:185-213 -/
def Spinner.jsonBase : Spinner := { Spinner.default with shared := { SharedAttrs.default with is_locked := false, editor_layer := none, editor_layer_name := none, editor_layer_visibility := none } }

/-- `Serialize` and `Deserialize` of `Spinner`, /repo/src/vpx/gameitem/spinner.rs:140-160 -/
def jSpinner : Codec Spinner := jStruct Spinner.jsonFields Spinner.jsonBase

/-- `RampJson`, /repo/src/vpx/gameitem/ramp.rs:196-230, filled by /repo/src/vpx/gameitem/ramp.rs:233-267 and read by
/repo/src/vpx/gameitem/ramp.rs:269-311 -/
def Ramp.jsonFields : List (JField Ramp) :=
  List.append [.req [key!"height_bottom"] jF32 (·.height_bottom) fun v s => { s with height_bottom := v },
   .req [key!"height_top"] jF32 (·.height_top) fun v s => { s with height_top := v },
   .req [key!"width_bottom"] jF32 (·.width_bottom) fun v s => { s with width_bottom := v },
   .req [key!"width_top"] jF32 (·.width_top) fun v s => { s with width_top := v },
   .req [key!"material"] jStr (·.material) fun v s => { s with material := v }]
  (List.append (timerFields Ramp.timerL)
  [.req [key!"ramp_type"] ⟨RampType.toJ, RampType.ofJ⟩ (·.ramp_type) fun v s => { s with ramp_type := v },
   .req [key!"name"] jStr (·.name) fun v s => { s with name := v },
   .req [key!"image"] jStr (·.image) fun v s => { s with image := v },
   .req [key!"image_alignment"] ⟨RampImageAlignment.toJ, RampImageAlignment.ofJ⟩ (·.image_alignment) fun v s => { s with image_alignment := v },
   .req [key!"image_walls"] jBool (·.image_walls) fun v s => { s with image_walls := v },
   .req [key!"left_wall_height"] jF32 (·.left_wall_height) fun v s => { s with left_wall_height := v },
   .req [key!"right_wall_height"] jF32 (·.right_wall_height) fun v s => { s with right_wall_height := v },
   .req [key!"left_wall_height_visible"] jF32 (·.left_wall_height_visible) fun v s => { s with left_wall_height_visible := v },
   .req [key!"right_wall_height_visible"] jF32 (·.right_wall_height_visible) fun v s => { s with right_wall_height_visible := v },
   .opt [key!"hit_event"] jBool (·.hit_event) fun v s => { s with hit_event := v },
   .opt [key!"threshold"] jF32 (·.threshold) fun v s => { s with threshold := v },
   .req [key!"elasticity"] jF32 (·.elasticity) fun v s => { s with elasticity := v },
   .req [key!"friction"] jF32 (·.friction) fun v s => { s with friction := v },
   .req [key!"scatter"] jF32 (·.scatter) fun v s => { s with scatter := v },
   .req [key!"is_collidable"] jBool (·.is_collidable) fun v s => { s with is_collidable := v },
   .req [key!"is_visible"] jBool (·.is_visible) fun v s => { s with is_visible := v },
   .req [key!"depth_bias"] jF32 (·.depth_bias) fun v s => { s with depth_bias := v },
   .req [key!"wire_diameter"] jF32 (·.wire_diameter) fun v s => { s with wire_diameter := v },
   .req [key!"wire_distance_x"] jF32 (·.wire_distance_x) fun v s => { s with wire_distance_x := v },
   .req [key!"wire_distance_y"] jF32 (·.wire_distance_y) fun v s => { s with wire_distance_y := v },
   .opt [key!"is_reflection_enabled"] jBool (·.is_reflection_enabled) fun v s => { s with is_reflection_enabled := v },
   .opt [key!"physics_material"] jStr (·.physics_material) fun v s => { s with physics_material := v },
   .opt [key!"overwrite_physics"] jBool (·.overwrite_physics) fun v s => { s with overwrite_physics := v },
   .req [key!"drag_points"] (jVec jDragPoint) (·.drag_points) fun v s => { s with drag_points := v },
   .optSkip [key!"part_group_name"] jStr (·.shared.part_group_name) fun v s => { s with shared := { s.shared with part_group_name := v } }])

/-- the fields that are not in the JSON form, /repo/src/vpx/gameitem/ramp.rs:269-311 -/
def Ramp.jsonBase : Ramp := { Ramp.default with shared := { SharedAttrs.default with is_locked := false, editor_layer := none, editor_layer_name := none, editor_layer_visibility := none } }

/-- `Serialize` and `Deserialize` of `Ramp`, /repo/src/vpx/gameitem/ramp.rs:48-62 -/
def jRamp : Codec Ramp := jStruct Ramp.jsonFields Ramp.jsonBase

/-- `ReelJson`, /repo/src/vpx/gameitem/reel.rs:49-71, filled by /repo/src/vpx/gameitem/reel.rs:74-96 and read by
/repo/src/vpx/gameitem/reel.rs:97-127 -/
def Reel.jsonFields : List (JField Reel) :=
  List.append [.req [key!"ver1"] jVertex2D (·.ver1) fun v s => { s with ver1 := v },
   .req [key!"ver2"] jVertex2D (·.ver2) fun v s => { s with ver2 := v },
   .req [key!"back_color"] jColor (·.back_color) fun v s => { s with back_color := v }]
  (List.append (timerFields Reel.timerL)
  [.req [key!"is_transparent"] jBool (·.is_transparent) fun v s => { s with is_transparent := v },
   .req [key!"image"] jStr (·.image) fun v s => { s with image := v },
   .req [key!"sound"] jStr (·.sound) fun v s => { s with sound := v },
   .req [key!"name"] jStr (·.name) fun v s => { s with name := v },
   .req [key!"width"] jF32 (·.width) fun v s => { s with width := v },
   .req [key!"height"] jF32 (·.height) fun v s => { s with height := v },
   .req [key!"reel_count"] jF32 (·.reel_count) fun v s => { s with reel_count := v },
   .req [key!"reel_spacing"] jF32 (·.reel_spacing) fun v s => { s with reel_spacing := v },
   .req [key!"motor_steps"] jF32 (·.motor_steps) fun v s => { s with motor_steps := v },
   .req [key!"digit_range"] jF32 (·.digit_range) fun v s => { s with digit_range := v },
   .req [key!"update_interval"] jU32 (·.update_interval) fun v s => { s with update_interval := v },
   .req [key!"use_image_grid"] jBool (·.use_image_grid) fun v s => { s with use_image_grid := v },
   .req [key!"is_visible"] jBool (·.is_visible) fun v s => { s with is_visible := v },
   .req [key!"images_per_grid_row"] jU32 (·.images_per_grid_row) fun v s => { s with images_per_grid_row := v },
   .optSkip [key!"part_group_name"] jStr (·.shared.part_group_name) fun v s => { s with shared := { s.shared with part_group_name := v } }])

/-- the fields that are not in the JSON form, /repo/src/vpx/gameitem/reel.rs:97-127 -/
def Reel.jsonBase : Reel := { Reel.default with shared := { SharedAttrs.default with is_locked := false, editor_layer := none, editor_layer_name := none, editor_layer_visibility := none } }

/-- `Serialize` and `Deserialize` of `Reel`, /repo/src/vpx/gameitem/reel.rs:49-71 -/
def jReel : Codec Reel := jStruct Reel.jsonFields Reel.jsonBase

/-- `LightSequencerJson`, /repo/src/vpx/gameitem/lightsequencer.rs:35-47, filled by /repo/src/vpx/gameitem/lightsequencer.rs:50-62 and read by
/repo/src/vpx/gameitem/lightsequencer.rs:63-83 -/
def LightSequencer.jsonFields : List (JField LightSequencer) :=
  List.append [.req [key!"center"] jVertex2D (·.center) fun v s => { s with center := v },
   .req [key!"collection"] jStr (·.collection) fun v s => { s with collection := v },
   .req [key!"pos_x"] jF32 (·.pos_x) fun v s => { s with pos_x := v },
   .req [key!"pos_y"] jF32 (·.pos_y) fun v s => { s with pos_y := v },
   .req [key!"update_interval"] jU32 (·.update_interval) fun v s => { s with update_interval := v }]
  (List.append (timerFields LightSequencer.timerL)
  [.req [key!"name"] jStr (·.name) fun v s => { s with name := v },
   .req [key!"backglass"] jBool (·.backglass) fun v s => { s with backglass := v },
   .optSkip [key!"part_group_name"] jStr (·.part_group_name) fun v s => { s with part_group_name := v }])

/-- the fields that are not in the JSON form, /repo/src/vpx/gameitem/lightsequencer.rs:63-83 -/
def LightSequencer.jsonBase : LightSequencer := { LightSequencer.default with is_locked := none, editor_layer := none, editor_layer_name := none, editor_layer_visibility := none }

/-- `Serialize` and `Deserialize` of `LightSequencer`, /repo/src/vpx/gameitem/lightsequencer.rs:35-47 -/
def jLightSequencer : Codec LightSequencer := jStruct LightSequencer.jsonFields LightSequencer.jsonBase

/-- `PrimitiveJson`, /repo/src/vpx/gameitem/primitive.rs:466-514, filled by /repo/src/vpx/gameitem/primitive.rs:607-666 and read by
/repo/src/vpx/gameitem/primitive.rs:667-732 -/
def Primitive.jsonFields : List (JField Primitive) :=
  [.req [key!"position"] jVertex3D (·.position) fun v s => { s with position := v },
   .req [key!"size"] jVertex3D (·.size) fun v s => { s with size := v },
   rotAndTraField,
   .req [key!"image"] jStr (·.image) fun v s => { s with image := v },
   .opt [key!"normal_map"] jStr (·.normal_map) fun v s => { s with normal_map := v },
   .req [key!"sides"] jU32 (·.sides) fun v s => { s with sides := v },
   .req [key!"name"] jStr (·.name) fun v s => { s with name := v },
   .req [key!"material"] jStr (·.material) fun v s => { s with material := v },
   .req [key!"side_color"] jColor (·.side_color) fun v s => { s with side_color := v },
   .req [key!"is_visible"] jBool (·.is_visible) fun v s => { s with is_visible := v },
   .req [key!"draw_textures_inside"] jBool (·.draw_textures_inside) fun v s => { s with draw_textures_inside := v },
   .req [key!"hit_event"] jBool (·.hit_event) fun v s => { s with hit_event := v },
   .req [key!"threshold"] jF32 (·.threshold) fun v s => { s with threshold := v },
   .req [key!"elasticity"] jF32 (·.elasticity) fun v s => { s with elasticity := v },
   .req [key!"elasticity_falloff"] jF32 (·.elasticity_falloff) fun v s => { s with elasticity_falloff := v },
   .req [key!"friction"] jF32 (·.friction) fun v s => { s with friction := v },
   .req [key!"scatter"] jF32 (·.scatter) fun v s => { s with scatter := v },
   .req [key!"edge_factor_ui"] jF32 (·.edge_factor_ui) fun v s => { s with edge_factor_ui := v },
   .opt [key!"collision_reduction_factor"] jF32 (·.collision_reduction_factor) fun v s => { s with collision_reduction_factor := v },
   .req [key!"is_collidable"] jBool (·.is_collidable) fun v s => { s with is_collidable := v },
   .req [key!"is_toy"] jBool (·.is_toy) fun v s => { s with is_toy := v },
   .req [key!"use_3d_mesh"] jBool (·.use_3d_mesh) fun v s => { s with use_3d_mesh := v },
   .req [key!"static_rendering"] jBool (·.static_rendering) fun v s => { s with static_rendering := v },
   .opt [key!"disable_lighting_top_old"] jF32 (·.disable_lighting_top_old) fun v s => { s with disable_lighting_top_old := v },
   .opt [key!"disable_lighting_top"] jF32 (·.disable_lighting_top) fun v s => { s with disable_lighting_top := v },
   .opt [key!"disable_lighting_below"] jF32 (·.disable_lighting_below) fun v s => { s with disable_lighting_below := v },
   .opt [key!"is_reflection_enabled"] jBool (·.is_reflection_enabled) fun v s => { s with is_reflection_enabled := v },
   .opt [key!"backfaces_enabled"] jBool (·.backfaces_enabled) fun v s => { s with backfaces_enabled := v },
   .opt [key!"physics_material"] jStr (·.physics_material) fun v s => { s with physics_material := v },
   .opt [key!"overwrite_physics"] jBool (·.overwrite_physics) fun v s => { s with overwrite_physics := v },
   .opt [key!"display_texture"] jBool (·.display_texture) fun v s => { s with display_texture := v },
   .opt [key!"object_space_normal_map"] jBool (·.object_space_normal_map) fun v s => { s with object_space_normal_map := v },
   .opt [key!"min_aa_bound"] jVertex3D (·.min_aa_bound) fun v s => { s with min_aa_bound := v },
   .opt [key!"max_aa_bound"] jVertex3D (·.max_aa_bound) fun v s => { s with max_aa_bound := v },
   .opt [key!"mesh_file_name"] jStr (·.mesh_file_name) fun v s => { s with mesh_file_name := v },
   .req [key!"depth_bias"] jF32 (·.depth_bias) fun v s => { s with depth_bias := v },
   .opt [key!"add_blend"] jBool (·.add_blend) fun v s => { s with add_blend := v },
   .opt [key!"use_depth_mask"] jBool (·.use_depth_mask) fun v s => { s with use_depth_mask := v },
   .opt [key!"alpha"] jF32 (·.alpha) fun v s => { s with alpha := v },
   .opt [key!"color"] jColor (·.color) fun v s => { s with color := v },
   .opt [key!"light_map"] jStr (·.light_map) fun v s => { s with light_map := v },
   .opt [key!"reflection_probe"] jStr (·.reflection_probe) fun v s => { s with reflection_probe := v },
   .opt [key!"reflection_strength"] jF32 (·.reflection_strength) fun v s => { s with reflection_strength := v },
   .opt [key!"refraction_probe"] jStr (·.refraction_probe) fun v s => { s with refraction_probe := v },
   .opt [key!"refraction_thickness"] jF32 (·.refraction_thickness) fun v s => { s with refraction_thickness := v },
   .optSkip [key!"part_group_name"] jStr (·.shared.part_group_name) fun v s => { s with shared := { s.shared with part_group_name := v } }]

/-- the fields that are not in the JSON form, /repo/src/vpx/gameitem/primitive.rs:667-732 -/
def Primitive.jsonBase : Primitive := { Primitive.default with shared := { SharedAttrs.default with is_locked := false, editor_layer := none, editor_layer_name := none, editor_layer_visibility := none }, num_vertices := none, compressed_vertices_len := none, compressed_vertices_data := none, num_indices := none, compressed_indices_len := none, compressed_indices_data := none, compressed_animation_vertices_len := none, compressed_animation_vertices_data := none }

/-- `Serialize` and `Deserialize` of `Primitive`, /repo/src/vpx/gameitem/primitive.rs:466-514 -/
def jPrimitive : Codec Primitive := jStruct Primitive.jsonFields Primitive.jsonBase

/-- `FlasherJson`, /repo/src/vpx/gameitem/flasher.rs:568-605, filled by /repo/src/vpx/gameitem/flasher.rs:608-645 and read by
/repo/src/vpx/gameitem/flasher.rs:646-691 -/
def Flasher.jsonFields : List (JField Flasher) :=
  List.append [.req [key!"height"] jF32 (·.height) fun v s => { s with height := v },
   .req [key!"pos_x"] jF32 (·.pos_x) fun v s => { s with pos_x := v },
   .req [key!"pos_y"] jF32 (·.pos_y) fun v s => { s with pos_y := v },
   .req [key!"rot_x"] jF32 (·.rot_x) fun v s => { s with rot_x := v },
   .req [key!"rot_y"] jF32 (·.rot_y) fun v s => { s with rot_y := v },
   .req [key!"rot_z"] jF32 (·.rot_z) fun v s => { s with rot_z := v },
   .req [key!"color"] jColor (·.color) fun v s => { s with color := v }]
  (List.append (timerFields Flasher.timerL)
  [.req [key!"name"] jStr (·.name) fun v s => { s with name := v },
   .req [key!"image_a"] jStr (·.image_a) fun v s => { s with image_a := v },
   .req [key!"image_b"] jStr (·.image_b) fun v s => { s with image_b := v },
   .req [key!"alpha"] jI32 (·.alpha) fun v s => { s with alpha := v },
   .req [key!"modulate_vs_add"] jF32 (·.modulate_vs_add) fun v s => { s with modulate_vs_add := v },
   .req [key!"is_visible"] jBool (·.is_visible) fun v s => { s with is_visible := v },
   .req [key!"add_blend"] jBool (·.add_blend) fun v s => { s with add_blend := v },
   .opt [key!"is_dmd"] jBool (·.is_dmd) fun v s => { s with is_dmd := v },
   .opt [key!"render_mode"] ⟨RenderMode.toJ, RenderMode.ofJ⟩ (·.render_mode) fun v s => { s with render_mode := v },
   .opt [key!"render_style"] jU32 (·.render_style) fun v s => { s with render_style := v },
   .opt [key!"glass_roughness"] jF32 (·.glass_roughness) fun v s => { s with glass_roughness := v },
   .opt [key!"glass_ambient"] jU32 (·.glass_ambient) fun v s => { s with glass_ambient := v },
   .opt [key!"glass_pad_top"] jF32 (·.glass_pad_top) fun v s => { s with glass_pad_top := v },
   .opt [key!"glass_pad_bottom"] jF32 (·.glass_pad_bottom) fun v s => { s with glass_pad_bottom := v },
   .opt [key!"glass_pad_left"] jF32 (·.glass_pad_left) fun v s => { s with glass_pad_left := v },
   .opt [key!"glass_pad_right"] jF32 (·.glass_pad_right) fun v s => { s with glass_pad_right := v },
   .opt [key!"image_src_link"] jStr (·.image_src_link) fun v s => { s with image_src_link := v },
   .req [key!"display_texture"] jBool (·.display_texture) fun v s => { s with display_texture := v },
   .req [key!"depth_bias"] jF32 (·.depth_bias) fun v s => { s with depth_bias := v },
   .req [key!"image_alignment"] ⟨RampImageAlignment.toJ, RampImageAlignment.ofJ⟩ (·.image_alignment) fun v s => { s with image_alignment := v },
   .req [key!"filter"] ⟨Filter.toJ, Filter.ofJ⟩ (·.filter) fun v s => { s with filter := v },
   .req [key!"filter_amount"] jU32 (·.filter_amount) fun v s => { s with filter_amount := v },
   .opt [key!"light_map"] jStr (·.light_map) fun v s => { s with light_map := v },
   .opt [key!"backglass"] jBool (·.backglass) fun v s => { s with backglass := v },
   .optSkip [key!"part_group_name"] jStr (·.shared.part_group_name) fun v s => { s with shared := { s.shared with part_group_name := v } },
   .req [key!"drag_points"] (jVec jDragPoint) (·.drag_points) fun v s => { s with drag_points := v }])

/-- the fields that are not in the JSON form, /repo/src/vpx/gameitem/flasher.rs:646-691 -/
def Flasher.jsonBase : Flasher := { Flasher.default with shared := { SharedAttrs.default with is_locked := false, editor_layer := none, editor_layer_name := none, editor_layer_visibility := none } }

/-- `Serialize` and `Deserialize` of `Flasher`, /repo/src/vpx/gameitem/flasher.rs:568-605 -/
def jFlasher : Codec Flasher := jStruct Flasher.jsonFields Flasher.jsonBase

/-- `RubberJson`, /repo/src/vpx/gameitem/rubber.rs:58-86, filled by /repo/src/vpx/gameitem/rubber.rs:89-117 and read by
/repo/src/vpx/gameitem/rubber.rs:119-155 -/
def Rubber.jsonFields : List (JField Rubber) :=
  List.append [.req [key!"height"] jF32 (·.height) fun v s => { s with height := v },
   .opt [key!"hit_height"] jF32 (·.hit_height) fun v s => { s with hit_height := v },
   .req [key!"thickness"] jI32 (·.thickness) fun v s => { s with thickness := v },
   .req [key!"hit_event"] jBool (·.hit_event) fun v s => { s with hit_event := v },
   .req [key!"material"] jStr (·.material) fun v s => { s with material := v }]
  (List.append (timerFields Rubber.timerL)
  [.req [key!"name"] jStr (·.name) fun v s => { s with name := v },
   .req [key!"image"] jStr (·.image) fun v s => { s with image := v },
   .req [key!"elasticity"] jF32 (·.elasticity) fun v s => { s with elasticity := v },
   .req [key!"elasticity_falloff"] jF32 (·.elasticity_falloff) fun v s => { s with elasticity_falloff := v },
   .req [key!"friction"] jF32 (·.friction) fun v s => { s with friction := v },
   .req [key!"scatter"] jF32 (·.scatter) fun v s => { s with scatter := v },
   .req [key!"is_collidable"] jBool (·.is_collidable) fun v s => { s with is_collidable := v },
   .req [key!"is_visible"] jBool (·.is_visible) fun v s => { s with is_visible := v },
   .opt [key!"radb"] jF32 (·.radb) fun v s => { s with radb := v },
   .req [key!"static_rendering"] jBool (·.static_rendering) fun v s => { s with static_rendering := v },
   .req [key!"show_in_editor"] jBool (·.show_in_editor) fun v s => { s with show_in_editor := v },
   .req [key!"rot_x"] jF32 (·.rot_x) fun v s => { s with rot_x := v },
   .req [key!"rot_y"] jF32 (·.rot_y) fun v s => { s with rot_y := v },
   .req [key!"rot_z"] jF32 (·.rot_z) fun v s => { s with rot_z := v },
   .opt [key!"is_reflection_enabled"] jBool (·.is_reflection_enabled) fun v s => { s with is_reflection_enabled := v },
   .opt [key!"physics_material"] jStr (·.physics_material) fun v s => { s with physics_material := v },
   .opt [key!"overwrite_physics"] jBool (·.overwrite_physics) fun v s => { s with overwrite_physics := v },
   .req [key!"drag_points"] (jVec jDragPoint) (·.drag_points) fun v s => { s with drag_points := v },
   .optSkip [key!"part_group_name"] jStr (·.shared.part_group_name) fun v s => { s with shared := { s.shared with part_group_name := v } }])

/-- the fields that are not in the JSON form, /repo/src/vpx/gameitem/rubber.rs:119-155 -/
def Rubber.jsonBase : Rubber := { Rubber.default with shared := { SharedAttrs.default with is_locked := false, editor_layer := none, editor_layer_name := none, editor_layer_visibility := none } }

/-- `Serialize` and `Deserialize` of `Rubber`, /repo/src/vpx/gameitem/rubber.rs:58-86 -/
def jRubber : Codec Rubber := jStruct Rubber.jsonFields Rubber.jsonBase

/-- `HitTargetJson`, /repo/src/vpx/gameitem/hittarget.rs:307-338, filled by /repo/src/vpx/gameitem/hittarget.rs:341-372 and read by
/repo/src/vpx/gameitem/hittarget.rs:374-413 -/
def HitTarget.jsonFields : List (JField HitTarget) :=
  List.append [.req [key!"position"] jVertex3D (·.position) fun v s => { s with position := v },
   .req [key!"size"] jVertex3D (·.size) fun v s => { s with size := v },
   .req [key!"rot_z"] jF32 (·.rot_z) fun v s => { s with rot_z := v },
   .req [key!"image"] jStr (·.image) fun v s => { s with image := v },
   .req [key!"target_type"] ⟨TargetType.toJ, TargetType.ofJ⟩ (·.target_type) fun v s => { s with target_type := v },
   .req [key!"name"] jStr (·.name) fun v s => { s with name := v },
   .req [key!"material"] jStr (·.material) fun v s => { s with material := v },
   .req [key!"is_visible"] jBool (·.is_visible) fun v s => { s with is_visible := v },
   .req [key!"is_legacy"] jBool (·.is_legacy) fun v s => { s with is_legacy := v },
   .req [key!"use_hit_event"] jBool (·.use_hit_event) fun v s => { s with use_hit_event := v },
   .req [key!"threshold"] jF32 (·.threshold) fun v s => { s with threshold := v },
   .req [key!"elasticity"] jF32 (·.elasticity) fun v s => { s with elasticity := v },
   .req [key!"elasticity_falloff"] jF32 (·.elasticity_falloff) fun v s => { s with elasticity_falloff := v },
   .req [key!"friction"] jF32 (·.friction) fun v s => { s with friction := v },
   .req [key!"scatter"] jF32 (·.scatter) fun v s => { s with scatter := v },
   .req [key!"is_collidable"] jBool (·.is_collidable) fun v s => { s with is_collidable := v },
   .opt [key!"disable_lighting_top_old"] jF32 (·.disable_lighting_top_old) fun v s => { s with disable_lighting_top_old := v },
   .opt [key!"disable_lighting_top"] jF32 (·.disable_lighting_top) fun v s => { s with disable_lighting_top := v },
   .opt [key!"disable_lighting_below"] jF32 (·.disable_lighting_below) fun v s => { s with disable_lighting_below := v },
   .req [key!"depth_bias"] jF32 (·.depth_bias) fun v s => { s with depth_bias := v },
   .req [key!"is_reflection_enabled"] jBool (·.is_reflection_enabled) fun v s => { s with is_reflection_enabled := v },
   .req [key!"is_dropped"] jBool (·.is_dropped) fun v s => { s with is_dropped := v },
   .req [key!"drop_speed"] jF32 (·.drop_speed) fun v s => { s with drop_speed := v }]
  (List.append (timerFields HitTarget.timerL)
  [.opt [key!"raise_delay"] jU32 (·.raise_delay) fun v s => { s with raise_delay := v },
   .opt [key!"physics_material"] jStr (·.physics_material) fun v s => { s with physics_material := v },
   .opt [key!"overwrite_physics"] jBool (·.overwrite_physics) fun v s => { s with overwrite_physics := v },
   .optSkip [key!"part_group_name"] jStr (·.shared.part_group_name) fun v s => { s with shared := { s.shared with part_group_name := v } }])

/-- the fields that are not in the JSON form, /repo/src/vpx/gameitem/hittarget.rs:374-413 -/
def HitTarget.jsonBase : HitTarget := { HitTarget.default with shared := { SharedAttrs.default with is_locked := false, editor_layer := none, editor_layer_name := none, editor_layer_visibility := none } }

/-- `Serialize` and `Deserialize` of `HitTarget`, /repo/src/vpx/gameitem/hittarget.rs:307-338 -/
def jHitTarget : Codec HitTarget := jStruct HitTarget.jsonFields HitTarget.jsonBase

/-- `BallJson`, /repo/src/vpx/gameitem/ball.rs:170-188, filled by /repo/src/vpx/gameitem/ball.rs:191-209 and read by
/repo/src/vpx/gameitem/ball.rs:249-280 -/
def Ball.jsonFields : List (JField Ball) :=
  List.append [.req [key!"pos"] jVertex3D (·.pos) fun v s => { s with pos := v },
   .req [key!"radius"] jF32 (·.radius) fun v s => { s with radius := v },
   .req [key!"mass"] jF32 (·.mass) fun v s => { s with mass := v },
   .req [key!"force_reflection"] jBool (·.force_reflection) fun v s => { s with force_reflection := v },
   .req [key!"decal_mode"] jBool (·.decal_mode) fun v s => { s with decal_mode := v },
   .req [key!"image"] jStr (·.image) fun v s => { s with image := v },
   .req [key!"image_decal"] jStr (·.image_decal) fun v s => { s with image_decal := v },
   .req [key!"bulb_intensity_scale"] jF32 (·.bulb_intensity_scale) fun v s => { s with bulb_intensity_scale := v },
   .req [key!"playfield_reflection_strength"] jF32 (·.playfield_reflection_strength) fun v s => { s with playfield_reflection_strength := v },
   .req [key!"color"] jColor (·.color) fun v s => { s with color := v },
   .req [key!"spherical_mapping"] jBool (·.spherical_mapping) fun v s => { s with spherical_mapping := v },
   .req [key!"is_reflection_enabled"] jBool (·.is_reflection_enabled) fun v s => { s with is_reflection_enabled := v }]
  (List.append (timerFields Ball.timerL)
  [.req [key!"name"] jStr (·.name) fun v s => { s with name := v },
   .optSkip [key!"part_group_name"] jStr (·.shared.part_group_name) fun v s => { s with shared := { s.shared with part_group_name := v } }])

/-- the fields that are not in the JSON form, /repo/src/vpx/gameitem/ball.rs:249-280 -/
def Ball.jsonBase : Ball := { Ball.default with shared := { SharedAttrs.default with is_locked := false, editor_layer := none, editor_layer_name := none, editor_layer_visibility := none } }

/-- `Serialize` and `Deserialize` of `Ball`, /repo/src/vpx/gameitem/ball.rs:170-188 -/
def jBall : Codec Ball := jStruct Ball.jsonFields Ball.jsonBase

/-- `PartGroupJson`, /repo/src/vpx/gameitem/partgroup.rs:166-181, filled by /repo/src/vpx/gameitem/partgroup.rs:184-197 and read by
/repo/src/vpx/gameitem/partgroup.rs:199-212 -/
def PartGroup.jsonFields : List (JField PartGroup) :=
  List.append [.req [key!"name"] jStr (·.name) fun v s => { s with name := v },
   .req [key!"center"] jVertex2D (·.center) fun v s => { s with center := v }]
  (List.append (timerFields PartGroup.timerL)
  [.req [key!"backglass"] jBool (·.backglass) fun v s => { s with backglass := v },
   .optSkip [key!"visibility_mask"] jU32 (·.visibility_mask) fun v s => { s with visibility_mask := v },
   .req [key!"space_reference"] ⟨SpaceReference.toJ, SpaceReference.ofJ⟩ (·.space_reference) fun v s => { s with space_reference := v },
   .optSkip [key!"player_mode_visibility_mask"] jU32 (·.player_mode_visibility_mask) fun v s => { s with player_mode_visibility_mask := v },
   .req [key!"is_locked"] jBool (·.is_locked) fun v s => { s with is_locked := v },
   .opt [key!"editor_layer_name"] jStr (·.editor_layer_name) fun v s => { s with editor_layer_name := v },
   .opt [key!"editor_layer_visibility"] jBool (·.editor_layer_visibility) fun v s => { s with editor_layer_visibility := v }])

/-- all fields are in the JSON form, /repo/src/vpx/gameitem/partgroup.rs:166-181 -/
def PartGroup.jsonBase : PartGroup := PartGroup.default

/-- `Serialize` and `Deserialize` of `PartGroup`, /repo/src/vpx/gameitem/partgroup.rs:166-181 -/
def jPartGroup : Codec PartGroup := jStruct PartGroup.jsonFields PartGroup.jsonBase

end Vpin
