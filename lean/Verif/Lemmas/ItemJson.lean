import Verif.Model.ItemJson
import Verif.Spec.ItemJson
import Verif.Lemmas.JsonCodec
import Verif.Lemmas.JsonEnums
/-! Helper lemmas: reading game items back from their JSON form. Generated by tools/gen_json.py. -/
namespace Vpin

theorem rotAndTra_ok {keeps : F32 → Prop} {s : Primitive}
    (h : ∀ x ∈ [s.rot_and_tra0, s.rot_and_tra1, s.rot_and_tra2, s.rot_and_tra3, s.rot_and_tra4, s.rot_and_tra5,
      s.rot_and_tra6, s.rot_and_tra7, s.rot_and_tra8], PlainF32 keeps x) :
    FieldOK keeps s rotAndTraField fun b =>
      { b with rot_and_tra0 := s.rot_and_tra0, rot_and_tra1 := s.rot_and_tra1, rot_and_tra2 := s.rot_and_tra2,
               rot_and_tra3 := s.rot_and_tra3, rot_and_tra4 := s.rot_and_tra4, rot_and_tra5 := s.rot_and_tra5,
               rot_and_tra6 := s.rot_and_tra6, rot_and_tra7 := s.rot_and_tra7, rot_and_tra8 := s.rot_and_tra8 } where
  back b := by
    show (match (jVec jF32).ofJ ((jVec jF32).toJ [_, _, _, _, _, _, _, _, _]) with | .ok [_, _, _, _, _, _, _, _, _] => _ | .ok _ => _ | .error e => _) = _
    rw [(jVec_ok jF32_ok).back _ h]
  valid j e := by cases e; exact (jVec_ok jF32_ok).valid _ h

def DragPoint.jsonPuts (s : DragPoint) : List (DragPoint → DragPoint) :=
  [fun b => { b with x := s.x },
   fun b => { b with y := s.y },
   fun b => { b with z := s.z },
   fun b => { b with smooth := s.smooth },
   fun b => { b with is_slingshot := s.is_slingshot },
   fun b => { b with has_auto_texture := s.has_auto_texture },
   fun b => { b with tex_coord := s.tex_coord },
   fun b => { b with is_locked := s.is_locked },
   fun b => { b with editor_layer := s.editor_layer },
   fun b => { b with editor_layer_name := s.editor_layer_name },
   fun b => { b with editor_layer_visibility := s.editor_layer_visibility }]

theorem DragPoint.json_fields {keeps : F32 → Prop} {s : DragPoint} (h : s.JsonOk keeps) :
    FieldsOK keeps s DragPoint.jsonFields s.jsonPuts :=
  (.cons (req_ok jF32_ok h.x)
    (.cons (req_ok jF32_ok h.y)
    (.cons (req_ok jF32_ok h.z)
    (.cons (req_ok jBool_ok trivial)
    (.cons (opt_ok jBool_ok (fun _ _ => trivial))
    (.cons (req_ok jBool_ok trivial)
    (.cons (req_ok jF32_ok h.tex_coord)
    (.cons (req_ok jBool_ok trivial)
    (.cons (opt_ok jU32_ok (fun _ _ => trivial))
    (.cons (optSkip_ok jStr_ok (fun _ _ => trivial))
    (.cons (optSkip_ok jBool_ok (fun _ _ => trivial))
    .nil)))))))))))

theorem DragPoint.json_names : NamesOK DragPoint.jsonFields := by decide +kernel

theorem DragPoint.json_puts (s : DragPoint) : s.jsonPuts.foldl (fun b p => p b) DragPoint.jsonBase = s.jsonPart := rfl

theorem DragPoint.json_back {keeps : F32 → Prop} {s : DragPoint} (h : s.JsonOk keeps) :
    jDragPoint.ofJ (jDragPoint.toJ s) = .ok s.jsonPart :=
  (readJ_writeJ (json_fields h) json_names).trans (congrArg Except.ok s.json_puts)

theorem DragPoint.json_valid {keeps : F32 → Prop} {s : DragPoint} (h : s.JsonOk keeps) : (jDragPoint.toJ s).Valid keeps :=
  writeJ_valid (json_fields h) json_names

theorem jDragPoint_ok {keeps : F32 → Prop} : CodecOK keeps jDragPoint (DragPoint.JsonOk keeps) where
  back _ h := DragPoint.json_back h
  valid _ h := DragPoint.json_valid h
  notNull _ _ e := by cases e

def Wall.jsonPuts (s : Wall) : List (Wall → Wall) :=
  List.append [fun b => { b with hit_event := s.hit_event },
   fun b => { b with is_droppable := s.is_droppable },
   fun b => { b with is_flipbook := s.is_flipbook },
   fun b => { b with is_bottom_solid := s.is_bottom_solid },
   fun b => { b with is_collidable := s.is_collidable }]
  (List.append [fun b => Wall.timerL.put { Wall.timerL.get b with is_enabled := (Wall.timerL.get s).is_enabled } b,
   fun b => Wall.timerL.put { Wall.timerL.get b with interval := (Wall.timerL.get s).interval } b]
  [fun b => { b with threshold := s.threshold },
   fun b => { b with image := s.image },
   fun b => { b with side_image := s.side_image },
   fun b => { b with side_material := s.side_material },
   fun b => { b with top_material := s.top_material },
   fun b => { b with slingshot_material := s.slingshot_material },
   fun b => { b with height_bottom := s.height_bottom },
   fun b => { b with height_top := s.height_top },
   fun b => { b with name := s.name },
   fun b => { b with display_texture := s.display_texture },
   fun b => { b with slingshot_force := s.slingshot_force },
   fun b => { b with slingshot_threshold := s.slingshot_threshold },
   fun b => { b with elasticity := s.elasticity },
   fun b => { b with elasticity_falloff := s.elasticity_falloff },
   fun b => { b with friction := s.friction },
   fun b => { b with scatter := s.scatter },
   fun b => { b with is_top_bottom_visible := s.is_top_bottom_visible },
   fun b => { b with slingshot_animation := s.slingshot_animation },
   fun b => { b with is_side_visible := s.is_side_visible },
   fun b => { b with disable_lighting_top_old := s.disable_lighting_top_old },
   fun b => { b with disable_lighting_top := s.disable_lighting_top },
   fun b => { b with disable_lighting_below := s.disable_lighting_below },
   fun b => { b with is_reflection_enabled := s.is_reflection_enabled },
   fun b => { b with physics_material := s.physics_material },
   fun b => { b with overwrite_physics := s.overwrite_physics },
   fun b => { b with drag_points := s.drag_points },
   fun b => { b with shared := { b.shared with part_group_name := s.shared.part_group_name } }])

theorem Wall.json_fields {keeps : F32 → Prop} {s : Wall} (h : s.JsonOk keeps) :
    FieldsOK keeps s Wall.jsonFields s.jsonPuts :=
  (.append (.cons (req_ok jBool_ok trivial)
    (.cons (req_ok jBool_ok trivial)
    (.cons (req_ok jBool_ok trivial)
    (.cons (req_ok jBool_ok trivial)
    (.cons (req_ok jBool_ok trivial)
    .nil)))))
    (.append timer_ok
    (.cons (req_ok jF32_ok h.threshold)
    (.cons (req_ok jStr_ok trivial)
    (.cons (req_ok jStr_ok trivial)
    (.cons (req_ok jStr_ok trivial)
    (.cons (req_ok jStr_ok trivial)
    (.cons (req_ok jStr_ok trivial)
    (.cons (req_ok jF32_ok h.height_bottom)
    (.cons (req_ok jF32_ok h.height_top)
    (.cons (req_ok jStr_ok trivial)
    (.cons (req_ok jBool_ok trivial)
    (.cons (req_ok jF32_ok h.slingshot_force)
    (.cons (req_ok jF32_ok h.slingshot_threshold)
    (.cons (req_ok jF32_ok h.elasticity)
    (.cons (opt_ok jF32_ok h.elasticity_falloff)
    (.cons (req_ok jF32_ok h.friction)
    (.cons (req_ok jF32_ok h.scatter)
    (.cons (req_ok jBool_ok trivial)
    (.cons (req_ok jBool_ok trivial)
    (.cons (req_ok jBool_ok trivial)
    (.cons (opt_ok jF32_ok h.disable_lighting_top_old)
    (.cons (opt_ok jF32_ok h.disable_lighting_top)
    (.cons (opt_ok jF32_ok h.disable_lighting_below)
    (.cons (opt_ok jBool_ok (fun _ _ => trivial))
    (.cons (opt_ok jStr_ok (fun _ _ => trivial))
    (.cons (opt_ok jBool_ok (fun _ _ => trivial))
    (.cons (req_ok (jVec_ok jDragPoint_ok) h.drag_points)
    (.cons (optSkip_ok jStr_ok (fun _ _ => trivial))
    .nil)))))))))))))))))))))))))))))

theorem Wall.json_names : NamesOK Wall.jsonFields := by decide +kernel

theorem Wall.json_puts (s : Wall) : s.jsonPuts.foldl (fun b p => p b) Wall.jsonBase = s.jsonPart := rfl

theorem Wall.json_back {keeps : F32 → Prop} {s : Wall} (h : s.JsonOk keeps) :
    jWall.ofJ (jWall.toJ s) = .ok s.jsonPart :=
  (readJ_writeJ (json_fields h) json_names).trans (congrArg Except.ok s.json_puts)

theorem Wall.json_valid {keeps : F32 → Prop} {s : Wall} (h : s.JsonOk keeps) : (jWall.toJ s).Valid keeps :=
  writeJ_valid (json_fields h) json_names

def Flipper.jsonPuts (s : Flipper) : List (Flipper → Flipper) :=
  List.append [fun b => { b with center := s.center },
   fun b => { b with base_radius := s.base_radius },
   fun b => { b with end_radius := s.end_radius },
   fun b => { b with flipper_radius_max := s.flipper_radius_max },
   fun b => { b with return_ := s.return_ },
   fun b => { b with start_angle := s.start_angle },
   fun b => { b with end_angle := s.end_angle },
   fun b => { b with override_physics := s.override_physics },
   fun b => { b with mass := s.mass }]
  (List.append [fun b => Flipper.timerL.put { Flipper.timerL.get b with is_enabled := (Flipper.timerL.get s).is_enabled } b,
   fun b => Flipper.timerL.put { Flipper.timerL.get b with interval := (Flipper.timerL.get s).interval } b]
  [fun b => { b with surface := s.surface },
   fun b => { b with material := s.material },
   fun b => { b with name := s.name },
   fun b => { b with rubber_material := s.rubber_material },
   fun b => { b with rubber_thickness_int := s.rubber_thickness_int },
   fun b => { b with rubber_thickness := s.rubber_thickness },
   fun b => { b with rubber_height_int := s.rubber_height_int },
   fun b => { b with rubber_height := s.rubber_height },
   fun b => { b with rubber_width_int := s.rubber_width_int },
   fun b => { b with rubber_width := s.rubber_width },
   fun b => { b with strength := s.strength },
   fun b => { b with elasticity := s.elasticity },
   fun b => { b with elasticity_falloff := s.elasticity_falloff },
   fun b => { b with friction := s.friction },
   fun b => { b with ramp_up := s.ramp_up },
   fun b => { b with scatter := s.scatter },
   fun b => { b with torque_damping := s.torque_damping },
   fun b => { b with torque_damping_angle := s.torque_damping_angle },
   fun b => { b with flipper_radius_min := s.flipper_radius_min },
   fun b => { b with is_visible := s.is_visible },
   fun b => { b with is_enabled := s.is_enabled },
   fun b => { b with height := s.height },
   fun b => { b with image := s.image },
   fun b => { b with is_reflection_enabled := s.is_reflection_enabled },
   fun b => { b with shared := { b.shared with part_group_name := s.shared.part_group_name } }])

theorem Flipper.json_fields {keeps : F32 → Prop} {s : Flipper} (h : s.JsonOk keeps) :
    FieldsOK keeps s Flipper.jsonFields s.jsonPuts :=
  (.append (.cons (req_ok jVertex2D_ok h.center)
    (.cons (req_ok jF32_ok h.base_radius)
    (.cons (req_ok jF32_ok h.end_radius)
    (.cons (req_ok jF32_ok h.flipper_radius_max)
    (.cons (req_ok jF32_ok h.return_)
    (.cons (req_ok jF32_ok h.start_angle)
    (.cons (req_ok jF32_ok h.end_angle)
    (.cons (req_ok jU32_ok trivial)
    (.cons (req_ok jF32_ok h.mass)
    .nil)))))))))
    (.append timer_ok
    (.cons (req_ok jStr_ok trivial)
    (.cons (req_ok jStr_ok trivial)
    (.cons (req_ok jStr_ok trivial)
    (.cons (req_ok jStr_ok trivial)
    (.cons (req_ok jU32_ok trivial)
    (.cons (opt_ok jF32_ok h.rubber_thickness)
    (.cons (req_ok jU32_ok trivial)
    (.cons (opt_ok jF32_ok h.rubber_height)
    (.cons (req_ok jU32_ok trivial)
    (.cons (opt_ok jF32_ok h.rubber_width)
    (.cons (req_ok jF32_ok h.strength)
    (.cons (req_ok jF32_ok h.elasticity)
    (.cons (req_ok jF32_ok h.elasticity_falloff)
    (.cons (req_ok jF32_ok h.friction)
    (.cons (req_ok jF32_ok h.ramp_up)
    (.cons (opt_ok jF32_ok h.scatter)
    (.cons (opt_ok jF32_ok h.torque_damping)
    (.cons (opt_ok jF32_ok h.torque_damping_angle)
    (.cons (req_ok jF32_ok h.flipper_radius_min)
    (.cons (req_ok jBool_ok trivial)
    (.cons (req_ok jBool_ok trivial)
    (.cons (req_ok jF32_ok h.height)
    (.cons (opt_ok jStr_ok (fun _ _ => trivial))
    (.cons (opt_ok jBool_ok (fun _ _ => trivial))
    (.cons (optSkip_ok jStr_ok (fun _ _ => trivial))
    .nil)))))))))))))))))))))))))))

theorem Flipper.json_names : NamesOK Flipper.jsonFields := by decide +kernel

theorem Flipper.json_puts (s : Flipper) : s.jsonPuts.foldl (fun b p => p b) Flipper.jsonBase = s.jsonPart := rfl

theorem Flipper.json_back {keeps : F32 → Prop} {s : Flipper} (h : s.JsonOk keeps) :
    jFlipper.ofJ (jFlipper.toJ s) = .ok s.jsonPart :=
  (readJ_writeJ (json_fields h) json_names).trans (congrArg Except.ok s.json_puts)

theorem Flipper.json_valid {keeps : F32 → Prop} {s : Flipper} (h : s.JsonOk keeps) : (jFlipper.toJ s).Valid keeps :=
  writeJ_valid (json_fields h) json_names

def Timer.jsonPuts (s : Timer) : List (Timer → Timer) :=
  List.append [fun b => { b with center := s.center }]
  (List.append [fun b => Timer.timerL.put { Timer.timerL.get b with is_enabled := (Timer.timerL.get s).is_enabled } b,
   fun b => Timer.timerL.put { Timer.timerL.get b with interval := (Timer.timerL.get s).interval } b]
  [fun b => { b with name := s.name },
   fun b => { b with backglass := s.backglass },
   fun b => { b with shared := { b.shared with part_group_name := s.shared.part_group_name } }])

theorem Timer.json_fields {keeps : F32 → Prop} {s : Timer} (h : s.JsonOk keeps) :
    FieldsOK keeps s Timer.jsonFields s.jsonPuts :=
  (.append (.cons (req_ok jVertex2D_ok h.center)
    .nil)
    (.append timer_ok
    (.cons (req_ok jStr_ok trivial)
    (.cons (req_ok jBool_ok trivial)
    (.cons (optSkip_ok jStr_ok (fun _ _ => trivial))
    .nil)))))

theorem Timer.json_names : NamesOK Timer.jsonFields := by decide +kernel

theorem Timer.json_puts (s : Timer) : s.jsonPuts.foldl (fun b p => p b) Timer.jsonBase = s.jsonPart := rfl

theorem Timer.json_back {keeps : F32 → Prop} {s : Timer} (h : s.JsonOk keeps) :
    jTimer.ofJ (jTimer.toJ s) = .ok s.jsonPart :=
  (readJ_writeJ (json_fields h) json_names).trans (congrArg Except.ok s.json_puts)

theorem Timer.json_valid {keeps : F32 → Prop} {s : Timer} (h : s.JsonOk keeps) : (jTimer.toJ s).Valid keeps :=
  writeJ_valid (json_fields h) json_names

def Plunger.jsonPuts (s : Plunger) : List (Plunger → Plunger) :=
  List.append [fun b => { b with center := s.center },
   fun b => { b with width := s.width },
   fun b => { b with height := s.height },
   fun b => { b with z_adjust := s.z_adjust },
   fun b => { b with stroke := s.stroke },
   fun b => { b with speed_pull := s.speed_pull },
   fun b => { b with speed_fire := s.speed_fire },
   fun b => { b with plunger_type := s.plunger_type },
   fun b => { b with anim_frames := s.anim_frames },
   fun b => { b with material := s.material },
   fun b => { b with image := s.image },
   fun b => { b with mech_strength := s.mech_strength },
   fun b => { b with is_mech_plunger := s.is_mech_plunger },
   fun b => { b with auto_plunger := s.auto_plunger },
   fun b => { b with park_position := s.park_position },
   fun b => { b with scatter_velocity := s.scatter_velocity },
   fun b => { b with momentum_xfer := s.momentum_xfer }]
  (List.append [fun b => Plunger.timerL.put { Plunger.timerL.get b with is_enabled := (Plunger.timerL.get s).is_enabled } b,
   fun b => Plunger.timerL.put { Plunger.timerL.get b with interval := (Plunger.timerL.get s).interval } b]
  [fun b => { b with is_visible := s.is_visible },
   fun b => { b with is_reflection_enabled := s.is_reflection_enabled },
   fun b => { b with surface := s.surface },
   fun b => { b with name := s.name },
   fun b => { b with tip_shape := s.tip_shape },
   fun b => { b with rod_diam := s.rod_diam },
   fun b => { b with ring_gap := s.ring_gap },
   fun b => { b with ring_diam := s.ring_diam },
   fun b => { b with ring_width := s.ring_width },
   fun b => { b with spring_diam := s.spring_diam },
   fun b => { b with spring_gauge := s.spring_gauge },
   fun b => { b with spring_loops := s.spring_loops },
   fun b => { b with spring_end_loops := s.spring_end_loops },
   fun b => { b with shared := { b.shared with part_group_name := s.shared.part_group_name } }])

theorem Plunger.json_fields {keeps : F32 → Prop} {s : Plunger} (h : s.JsonOk keeps) :
    FieldsOK keeps s Plunger.jsonFields s.jsonPuts :=
  (.append (.cons (req_ok jVertex2D_ok h.center)
    (.cons (req_ok jF32_ok h.width)
    (.cons (req_ok jF32_ok h.height)
    (.cons (req_ok jF32_ok h.z_adjust)
    (.cons (req_ok jF32_ok h.stroke)
    (.cons (req_ok jF32_ok h.speed_pull)
    (.cons (req_ok jF32_ok h.speed_fire)
    (.cons (req_ok PlungerType.codec_ok trivial)
    (.cons (req_ok jU32_ok trivial)
    (.cons (req_ok jStr_ok trivial)
    (.cons (req_ok jStr_ok trivial)
    (.cons (req_ok jF32_ok h.mech_strength)
    (.cons (req_ok jBool_ok trivial)
    (.cons (req_ok jBool_ok trivial)
    (.cons (req_ok jF32_ok h.park_position)
    (.cons (req_ok jF32_ok h.scatter_velocity)
    (.cons (req_ok jF32_ok h.momentum_xfer)
    .nil)))))))))))))))))
    (.append timer_ok
    (.cons (req_ok jBool_ok trivial)
    (.cons (opt_ok jBool_ok (fun _ _ => trivial))
    (.cons (req_ok jStr_ok trivial)
    (.cons (req_ok jStr_ok trivial)
    (.cons (req_ok jStr_ok trivial)
    (.cons (req_ok jF32_ok h.rod_diam)
    (.cons (req_ok jF32_ok h.ring_gap)
    (.cons (req_ok jF32_ok h.ring_diam)
    (.cons (req_ok jF32_ok h.ring_width)
    (.cons (req_ok jF32_ok h.spring_diam)
    (.cons (req_ok jF32_ok h.spring_gauge)
    (.cons (req_ok jF32_ok h.spring_loops)
    (.cons (req_ok jF32_ok h.spring_end_loops)
    (.cons (optSkip_ok jStr_ok (fun _ _ => trivial))
    .nil))))))))))))))))

theorem Plunger.json_names : NamesOK Plunger.jsonFields := by decide +kernel

theorem Plunger.json_puts (s : Plunger) : s.jsonPuts.foldl (fun b p => p b) Plunger.jsonBase = s.jsonPart := rfl

theorem Plunger.json_back {keeps : F32 → Prop} {s : Plunger} (h : s.JsonOk keeps) :
    jPlunger.ofJ (jPlunger.toJ s) = .ok s.jsonPart :=
  (readJ_writeJ (json_fields h) json_names).trans (congrArg Except.ok s.json_puts)

theorem Plunger.json_valid {keeps : F32 → Prop} {s : Plunger} (h : s.JsonOk keeps) : (jPlunger.toJ s).Valid keeps :=
  writeJ_valid (json_fields h) json_names

def TextBox.jsonPuts (s : TextBox) : List (TextBox → TextBox) :=
  List.append [fun b => { b with ver1 := s.ver1 },
   fun b => { b with ver2 := s.ver2 },
   fun b => { b with back_color := s.back_color },
   fun b => { b with font_color := s.font_color },
   fun b => { b with intensity_scale := s.intensity_scale },
   fun b => { b with text := s.text }]
  (List.append [fun b => TextBox.timerL.put { TextBox.timerL.get b with is_enabled := (TextBox.timerL.get s).is_enabled } b,
   fun b => TextBox.timerL.put { TextBox.timerL.get b with interval := (TextBox.timerL.get s).interval } b]
  [fun b => { b with name := s.name },
   fun b => { b with align := s.align },
   fun b => { b with is_transparent := s.is_transparent },
   fun b => { b with is_dmd := s.is_dmd },
   fun b => { b with font := s.font },
   fun b => { b with shared := { b.shared with part_group_name := s.shared.part_group_name } }])

theorem TextBox.json_fields {keeps : F32 → Prop} {s : TextBox} (h : s.JsonOk keeps) :
    FieldsOK keeps s TextBox.jsonFields s.jsonPuts :=
  (.append (.cons (req_ok jVertex2D_ok h.ver1)
    (.cons (req_ok jVertex2D_ok h.ver2)
    (.cons (req_ok jColor_ok trivial)
    (.cons (req_ok jColor_ok trivial)
    (.cons (req_ok jF32_ok h.intensity_scale)
    (.cons (req_ok jStr_ok trivial)
    .nil))))))
    (.append timer_ok
    (.cons (req_ok jStr_ok trivial)
    (.cons (req_ok TextAlignment.codec_ok trivial)
    (.cons (req_ok jBool_ok trivial)
    (.cons (opt_ok jBool_ok (fun _ _ => trivial))
    (.cons (req_ok jFont_ok trivial)
    (.cons (optSkip_ok jStr_ok (fun _ _ => trivial))
    .nil))))))))

theorem TextBox.json_names : NamesOK TextBox.jsonFields := by decide +kernel

theorem TextBox.json_puts (s : TextBox) : s.jsonPuts.foldl (fun b p => p b) TextBox.jsonBase = s.jsonPart := rfl

theorem TextBox.json_back {keeps : F32 → Prop} {s : TextBox} (h : s.JsonOk keeps) :
    jTextBox.ofJ (jTextBox.toJ s) = .ok s.jsonPart :=
  (readJ_writeJ (json_fields h) json_names).trans (congrArg Except.ok s.json_puts)

theorem TextBox.json_valid {keeps : F32 → Prop} {s : TextBox} (h : s.JsonOk keeps) : (jTextBox.toJ s).Valid keeps :=
  writeJ_valid (json_fields h) json_names

def Bumper.jsonPuts (s : Bumper) : List (Bumper → Bumper) :=
  List.append [fun b => { b with center := s.center },
   fun b => { b with radius := s.radius }]
  (List.append [fun b => Bumper.timerL.put { Bumper.timerL.get b with is_enabled := (Bumper.timerL.get s).is_enabled } b,
   fun b => Bumper.timerL.put { Bumper.timerL.get b with interval := (Bumper.timerL.get s).interval } b]
  [fun b => { b with threshold := s.threshold },
   fun b => { b with force := s.force },
   fun b => { b with scatter := s.scatter },
   fun b => { b with height_scale := s.height_scale },
   fun b => { b with ring_speed := s.ring_speed },
   fun b => { b with orientation := s.orientation },
   fun b => { b with ring_drop_offset := s.ring_drop_offset },
   fun b => { b with cap_material := s.cap_material },
   fun b => { b with base_material := s.base_material },
   fun b => { b with socket_material := s.socket_material },
   fun b => { b with ring_material := s.ring_material },
   fun b => { b with surface := s.surface },
   fun b => { b with name := s.name },
   fun b => { b with is_cap_visible := s.is_cap_visible },
   fun b => { b with is_base_visible := s.is_base_visible },
   fun b => { b with is_ring_visible := s.is_ring_visible },
   fun b => { b with is_socket_visible := s.is_socket_visible },
   fun b => { b with hit_event := s.hit_event },
   fun b => { b with is_collidable := s.is_collidable },
   fun b => { b with is_reflection_enabled := s.is_reflection_enabled },
   fun b => { b with shared := { b.shared with part_group_name := s.shared.part_group_name } }])

theorem Bumper.json_fields {keeps : F32 → Prop} {s : Bumper} (h : s.JsonOk keeps) :
    FieldsOK keeps s Bumper.jsonFields s.jsonPuts :=
  (.append (.cons (req_ok jVertex2D_ok h.center)
    (.cons (req_ok jF32_ok h.radius)
    .nil))
    (.append timer_ok
    (.cons (req_ok jF32_ok h.threshold)
    (.cons (req_ok jF32_ok h.force)
    (.cons (opt_ok jF32_ok h.scatter)
    (.cons (req_ok jF32_ok h.height_scale)
    (.cons (req_ok jF32_ok h.ring_speed)
    (.cons (req_ok jF32_ok h.orientation)
    (.cons (opt_ok jNanInf_ok h.ring_drop_offset)
    (.cons (req_ok jStr_ok trivial)
    (.cons (req_ok jStr_ok trivial)
    (.cons (req_ok jStr_ok trivial)
    (.cons (opt_ok jStr_ok (fun _ _ => trivial))
    (.cons (req_ok jStr_ok trivial)
    (.cons (req_ok jStr_ok trivial)
    (.cons (req_ok jBool_ok trivial)
    (.cons (req_ok jBool_ok trivial)
    (.cons (opt_ok jBool_ok (fun _ _ => trivial))
    (.cons (opt_ok jBool_ok (fun _ _ => trivial))
    (.cons (opt_ok jBool_ok (fun _ _ => trivial))
    (.cons (opt_ok jBool_ok (fun _ _ => trivial))
    (.cons (opt_ok jBool_ok (fun _ _ => trivial))
    (.cons (optSkip_ok jStr_ok (fun _ _ => trivial))
    .nil)))))))))))))))))))))))

theorem Bumper.json_names : NamesOK Bumper.jsonFields := by decide +kernel

theorem Bumper.json_puts (s : Bumper) : s.jsonPuts.foldl (fun b p => p b) Bumper.jsonBase = s.jsonPart := rfl

theorem Bumper.json_back {keeps : F32 → Prop} {s : Bumper} (h : s.JsonOk keeps) :
    jBumper.ofJ (jBumper.toJ s) = .ok s.jsonPart :=
  (readJ_writeJ (json_fields h) json_names).trans (congrArg Except.ok s.json_puts)

theorem Bumper.json_valid {keeps : F32 → Prop} {s : Bumper} (h : s.JsonOk keeps) : (jBumper.toJ s).Valid keeps :=
  writeJ_valid (json_fields h) json_names

def Trigger.jsonPuts (s : Trigger) : List (Trigger → Trigger) :=
  List.append [fun b => { b with center := s.center },
   fun b => { b with radius := s.radius },
   fun b => { b with rotation := s.rotation },
   fun b => { b with wire_thickness := s.wire_thickness },
   fun b => { b with scale_x := s.scale_x },
   fun b => { b with scale_y := s.scale_y }]
  (List.append [fun b => Trigger.timerL.put { Trigger.timerL.get b with is_enabled := (Trigger.timerL.get s).is_enabled } b,
   fun b => Trigger.timerL.put { Trigger.timerL.get b with interval := (Trigger.timerL.get s).interval } b]
  [fun b => { b with material := s.material },
   fun b => { b with surface := s.surface },
   fun b => { b with is_visible := s.is_visible },
   fun b => { b with is_enabled := s.is_enabled },
   fun b => { b with hit_height := s.hit_height },
   fun b => { b with name := s.name },
   fun b => { b with shape := s.shape },
   fun b => { b with anim_speed := s.anim_speed },
   fun b => { b with is_reflection_enabled := s.is_reflection_enabled },
   fun b => { b with shared := { b.shared with part_group_name := s.shared.part_group_name } },
   fun b => { b with drag_points := s.drag_points }])

theorem Trigger.json_fields {keeps : F32 → Prop} {s : Trigger} (h : s.JsonOk keeps) :
    FieldsOK keeps s Trigger.jsonFields s.jsonPuts :=
  (.append (.cons (req_ok jVertex2D_ok h.center)
    (.cons (req_ok jF32_ok h.radius)
    (.cons (req_ok jF32_ok h.rotation)
    (.cons (opt_ok jF32_ok h.wire_thickness)
    (.cons (req_ok jF32_ok h.scale_x)
    (.cons (req_ok jF32_ok h.scale_y)
    .nil))))))
    (.append timer_ok
    (.cons (req_ok jStr_ok trivial)
    (.cons (req_ok jStr_ok trivial)
    (.cons (req_ok jBool_ok trivial)
    (.cons (req_ok jBool_ok trivial)
    (.cons (req_ok jF32_ok h.hit_height)
    (.cons (req_ok jStr_ok trivial)
    (.cons (req_ok TriggerShape.codec_ok trivial)
    (.cons (req_ok jF32_ok h.anim_speed)
    (.cons (opt_ok jBool_ok (fun _ _ => trivial))
    (.cons (optSkip_ok jStr_ok (fun _ _ => trivial))
    (.cons (req_ok (jVec_ok jDragPoint_ok) h.drag_points)
    .nil)))))))))))))

theorem Trigger.json_names : NamesOK Trigger.jsonFields := by decide +kernel

theorem Trigger.json_puts (s : Trigger) : s.jsonPuts.foldl (fun b p => p b) Trigger.jsonBase = s.jsonPart := rfl

theorem Trigger.json_back {keeps : F32 → Prop} {s : Trigger} (h : s.JsonOk keeps) :
    jTrigger.ofJ (jTrigger.toJ s) = .ok s.jsonPart :=
  (readJ_writeJ (json_fields h) json_names).trans (congrArg Except.ok s.json_puts)

theorem Trigger.json_valid {keeps : F32 → Prop} {s : Trigger} (h : s.JsonOk keeps) : (jTrigger.toJ s).Valid keeps :=
  writeJ_valid (json_fields h) json_names

def Light.jsonPuts (s : Light) : List (Light → Light) :=
  List.append [fun b => { b with center := s.center },
   fun b => { b with height := s.height },
   fun b => { b with falloff_radius := s.falloff_radius },
   fun b => { b with falloff_power := s.falloff_power },
   fun b => { b with state_u32 := s.state_u32 },
   fun b => { b with state := s.state },
   fun b => { b with color := s.color },
   fun b => { b with color2 := s.color2 }]
  (List.append [fun b => Light.timerL.put { Light.timerL.get b with is_enabled := (Light.timerL.get s).is_enabled } b,
   fun b => Light.timerL.put { Light.timerL.get b with interval := (Light.timerL.get s).interval } b]
  [fun b => { b with blink_pattern := s.blink_pattern },
   fun b => { b with image := s.image },
   fun b => { b with blink_interval := s.blink_interval },
   fun b => { b with intensity := s.intensity },
   fun b => { b with transmission_scale := s.transmission_scale },
   fun b => { b with surface := s.surface },
   fun b => { b with name := s.name },
   fun b => { b with is_backglass := s.is_backglass },
   fun b => { b with depth_bias := s.depth_bias },
   fun b => { b with fade_speed_up := s.fade_speed_up },
   fun b => { b with fade_speed_down := s.fade_speed_down },
   fun b => { b with is_bulb_light := s.is_bulb_light },
   fun b => { b with is_image_mode := s.is_image_mode },
   fun b => { b with show_bulb_mesh := s.show_bulb_mesh },
   fun b => { b with has_static_bulb_mesh := s.has_static_bulb_mesh },
   fun b => { b with show_reflection_on_ball := s.show_reflection_on_ball },
   fun b => { b with mesh_radius := s.mesh_radius },
   fun b => { b with bulb_modulate_vs_add := s.bulb_modulate_vs_add },
   fun b => { b with bulb_halo_height := s.bulb_halo_height },
   fun b => { b with shadows := s.shadows },
   fun b => { b with fader := s.fader },
   fun b => { b with visible := s.visible },
   fun b => { b with shared := { b.shared with part_group_name := s.shared.part_group_name } },
   fun b => { b with drag_points := s.drag_points }])

theorem Light.json_fields {keeps : F32 → Prop} {s : Light} (h : s.JsonOk keeps) :
    FieldsOK keeps s Light.jsonFields s.jsonPuts :=
  (.append (.cons (req_ok jVertex2D_ok h.center)
    (.cons (opt_ok jF32_ok h.height)
    (.cons (req_ok jF32_ok h.falloff_radius)
    (.cons (req_ok jF32_ok h.falloff_power)
    (.cons (req_ok jU32_ok trivial)
    (.cons (opt_ok jF32_ok h.state)
    (.cons (req_ok jColor_ok trivial)
    (.cons (req_ok jColor_ok trivial)
    .nil))))))))
    (.append timer_ok
    (.cons (req_ok jStr_ok trivial)
    (.cons (req_ok jStr_ok trivial)
    (.cons (req_ok jU32_ok trivial)
    (.cons (req_ok jF32_ok h.intensity)
    (.cons (req_ok jF32_ok h.transmission_scale)
    (.cons (req_ok jStr_ok trivial)
    (.cons (req_ok jStr_ok trivial)
    (.cons (req_ok jBool_ok trivial)
    (.cons (req_ok jF32_ok h.depth_bias)
    (.cons (req_ok jNanInf_ok h.fade_speed_up)
    (.cons (req_ok jNanInf_ok h.fade_speed_down)
    (.cons (req_ok jBool_ok trivial)
    (.cons (req_ok jBool_ok trivial)
    (.cons (req_ok jBool_ok trivial)
    (.cons (opt_ok jBool_ok (fun _ _ => trivial))
    (.cons (req_ok jBool_ok trivial)
    (.cons (req_ok jF32_ok h.mesh_radius)
    (.cons (req_ok jF32_ok h.bulb_modulate_vs_add)
    (.cons (req_ok jF32_ok h.bulb_halo_height)
    (.cons (opt_ok ShadowMode.codec_ok (fun _ _ => trivial))
    (.cons (opt_ok Fader.codec_ok (fun _ _ => trivial))
    (.cons (opt_ok jBool_ok (fun _ _ => trivial))
    (.cons (optSkip_ok jStr_ok (fun _ _ => trivial))
    (.cons (req_ok (jVec_ok jDragPoint_ok) h.drag_points)
    .nil))))))))))))))))))))))))))

theorem Light.json_names : NamesOK Light.jsonFields := by decide +kernel

theorem Light.json_puts (s : Light) : s.jsonPuts.foldl (fun b p => p b) Light.jsonBase = s.jsonPart := rfl

theorem Light.json_back {keeps : F32 → Prop} {s : Light} (h : s.JsonOk keeps) :
    jLight.ofJ (jLight.toJ s) = .ok s.jsonPart :=
  (readJ_writeJ (json_fields h) json_names).trans (congrArg Except.ok s.json_puts)

theorem Light.json_valid {keeps : F32 → Prop} {s : Light} (h : s.JsonOk keeps) : (jLight.toJ s).Valid keeps :=
  writeJ_valid (json_fields h) json_names

def Kicker.jsonPuts (s : Kicker) : List (Kicker → Kicker) :=
  List.append [fun b => { b with center := s.center },
   fun b => { b with radius := s.radius }]
  (List.append [fun b => Kicker.timerL.put { Kicker.timerL.get b with is_enabled := (Kicker.timerL.get s).is_enabled } b,
   fun b => Kicker.timerL.put { Kicker.timerL.get b with interval := (Kicker.timerL.get s).interval } b]
  [fun b => { b with material := s.material },
   fun b => { b with surface := s.surface },
   fun b => { b with is_enabled := s.is_enabled },
   fun b => { b with name := s.name },
   fun b => { b with kicker_type := s.kicker_type },
   fun b => { b with scatter := s.scatter },
   fun b => { b with hit_accuracy := s.hit_accuracy },
   fun b => { b with hit_height := s.hit_height },
   fun b => { b with orientation := s.orientation },
   fun b => { b with fall_through := s.fall_through },
   fun b => { b with legacy_mode := s.legacy_mode },
   fun b => { b with shared := { b.shared with part_group_name := s.shared.part_group_name } }])

theorem Kicker.json_fields {keeps : F32 → Prop} {s : Kicker} (h : s.JsonOk keeps) :
    FieldsOK keeps s Kicker.jsonFields s.jsonPuts :=
  (.append (.cons (req_ok jVertex2D_ok h.center)
    (.cons (req_ok jF32_ok h.radius)
    .nil))
    (.append timer_ok
    (.cons (req_ok jStr_ok trivial)
    (.cons (req_ok jStr_ok trivial)
    (.cons (req_ok jBool_ok trivial)
    (.cons (req_ok jStr_ok trivial)
    (.cons (req_ok KickerType.codec_ok trivial)
    (.cons (req_ok jF32_ok h.scatter)
    (.cons (req_ok jF32_ok h.hit_accuracy)
    (.cons (opt_ok jF32_ok h.hit_height)
    (.cons (req_ok jF32_ok h.orientation)
    (.cons (req_ok jBool_ok trivial)
    (.cons (req_ok jBool_ok trivial)
    (.cons (optSkip_ok jStr_ok (fun _ _ => trivial))
    .nil))))))))))))))

theorem Kicker.json_names : NamesOK Kicker.jsonFields := by decide +kernel

theorem Kicker.json_puts (s : Kicker) : s.jsonPuts.foldl (fun b p => p b) Kicker.jsonBase = s.jsonPart := rfl

theorem Kicker.json_back {keeps : F32 → Prop} {s : Kicker} (h : s.JsonOk keeps) :
    jKicker.ofJ (jKicker.toJ s) = .ok s.jsonPart :=
  (readJ_writeJ (json_fields h) json_names).trans (congrArg Except.ok s.json_puts)

theorem Kicker.json_valid {keeps : F32 → Prop} {s : Kicker} (h : s.JsonOk keeps) : (jKicker.toJ s).Valid keeps :=
  writeJ_valid (json_fields h) json_names

def Decal.jsonPuts (s : Decal) : List (Decal → Decal) :=
  [fun b => { b with center := s.center },
   fun b => { b with width := s.width },
   fun b => { b with height := s.height },
   fun b => { b with rotation := s.rotation },
   fun b => { b with image := s.image },
   fun b => { b with surface := s.surface },
   fun b => { b with name := s.name },
   fun b => { b with text := s.text },
   fun b => { b with decal_type := s.decal_type },
   fun b => { b with material := s.material },
   fun b => { b with color := s.color },
   fun b => { b with sizing_type := s.sizing_type },
   fun b => { b with vertical_text := s.vertical_text },
   fun b => { b with backglass := s.backglass },
   fun b => { b with shared := { b.shared with part_group_name := s.shared.part_group_name } },
   fun b => { b with font := s.font }]

theorem Decal.json_fields {keeps : F32 → Prop} {s : Decal} (h : s.JsonOk keeps) :
    FieldsOK keeps s Decal.jsonFields s.jsonPuts :=
  (.cons (req_ok jVertex2D_ok h.center)
    (.cons (req_ok jF32_ok h.width)
    (.cons (req_ok jF32_ok h.height)
    (.cons (req_ok jF32_ok h.rotation)
    (.cons (req_ok jStr_ok trivial)
    (.cons (req_ok jStr_ok trivial)
    (.cons (req_ok jStr_ok trivial)
    (.cons (req_ok jStr_ok trivial)
    (.cons (req_ok DecalType.codec_ok trivial)
    (.cons (req_ok jStr_ok trivial)
    (.cons (req_ok jColor_ok trivial)
    (.cons (req_ok SizingType.codec_ok trivial)
    (.cons (req_ok jBool_ok trivial)
    (.cons (req_ok jBool_ok trivial)
    (.cons (optSkip_ok jStr_ok (fun _ _ => trivial))
    (.cons (req_ok jFont_ok trivial)
    .nil))))))))))))))))

theorem Decal.json_names : NamesOK Decal.jsonFields := by decide +kernel

theorem Decal.json_puts (s : Decal) : s.jsonPuts.foldl (fun b p => p b) Decal.jsonBase = s.jsonPart := rfl

theorem Decal.json_back {keeps : F32 → Prop} {s : Decal} (h : s.JsonOk keeps) :
    jDecal.ofJ (jDecal.toJ s) = .ok s.jsonPart :=
  (readJ_writeJ (json_fields h) json_names).trans (congrArg Except.ok s.json_puts)

theorem Decal.json_valid {keeps : F32 → Prop} {s : Decal} (h : s.JsonOk keeps) : (jDecal.toJ s).Valid keeps :=
  writeJ_valid (json_fields h) json_names

def Gate.jsonPuts (s : Gate) : List (Gate → Gate) :=
  List.append [fun b => { b with center := s.center },
   fun b => { b with length := s.length },
   fun b => { b with height := s.height },
   fun b => { b with rotation := s.rotation },
   fun b => { b with material := s.material }]
  (List.append [fun b => Gate.timerL.put { Gate.timerL.get b with is_enabled := (Gate.timerL.get s).is_enabled } b,
   fun b => Gate.timerL.put { Gate.timerL.get b with interval := (Gate.timerL.get s).interval } b]
  [fun b => { b with show_bracket := s.show_bracket },
   fun b => { b with is_collidable := s.is_collidable },
   fun b => { b with imgf := s.imgf },
   fun b => { b with imgb := s.imgb },
   fun b => { b with surface := s.surface },
   fun b => { b with elasticity := s.elasticity },
   fun b => { b with angle_max := s.angle_max },
   fun b => { b with angle_min := s.angle_min },
   fun b => { b with friction := s.friction },
   fun b => { b with damping := s.damping },
   fun b => { b with gravity_factor := s.gravity_factor },
   fun b => { b with is_visible := s.is_visible },
   fun b => { b with name := s.name },
   fun b => { b with two_way := s.two_way },
   fun b => { b with is_reflection_enabled := s.is_reflection_enabled },
   fun b => { b with gate_type := s.gate_type },
   fun b => { b with shared := { b.shared with part_group_name := s.shared.part_group_name } }])

theorem Gate.json_fields {keeps : F32 → Prop} {s : Gate} (h : s.JsonOk keeps) :
    FieldsOK keeps s Gate.jsonFields s.jsonPuts :=
  (.append (.cons (req_ok jVertex2D_ok h.center)
    (.cons (req_ok jF32_ok h.length)
    (.cons (req_ok jF32_ok h.height)
    (.cons (req_ok jF32_ok h.rotation)
    (.cons (req_ok jStr_ok trivial)
    .nil)))))
    (.append timer_ok
    (.cons (req_ok jBool_ok trivial)
    (.cons (req_ok jBool_ok trivial)
    (.cons (opt_ok jStr_ok (fun _ _ => trivial))
    (.cons (opt_ok jStr_ok (fun _ _ => trivial))
    (.cons (req_ok jStr_ok trivial)
    (.cons (req_ok jF32_ok h.elasticity)
    (.cons (req_ok jF32_ok h.angle_max)
    (.cons (req_ok jF32_ok h.angle_min)
    (.cons (req_ok jF32_ok h.friction)
    (.cons (opt_ok jF32_ok h.damping)
    (.cons (opt_ok jF32_ok h.gravity_factor)
    (.cons (req_ok jBool_ok trivial)
    (.cons (req_ok jStr_ok trivial)
    (.cons (req_ok jBool_ok trivial)
    (.cons (opt_ok jBool_ok (fun _ _ => trivial))
    (.cons (opt_ok GateType.codec_ok h.gate_type)
    (.cons (optSkip_ok jStr_ok (fun _ _ => trivial))
    .nil)))))))))))))))))))

theorem Gate.json_names : NamesOK Gate.jsonFields := by decide +kernel

theorem Gate.json_puts (s : Gate) : s.jsonPuts.foldl (fun b p => p b) Gate.jsonBase = s.jsonPart := rfl

theorem Gate.json_back {keeps : F32 → Prop} {s : Gate} (h : s.JsonOk keeps) :
    jGate.ofJ (jGate.toJ s) = .ok s.jsonPart :=
  (readJ_writeJ (json_fields h) json_names).trans (congrArg Except.ok s.json_puts)

theorem Gate.json_valid {keeps : F32 → Prop} {s : Gate} (h : s.JsonOk keeps) : (jGate.toJ s).Valid keeps :=
  writeJ_valid (json_fields h) json_names

def Spinner.jsonPuts (s : Spinner) : List (Spinner → Spinner) :=
  List.append [fun b => { b with center := s.center },
   fun b => { b with rotation := s.rotation }]
  (List.append [fun b => Spinner.timerL.put { Spinner.timerL.get b with is_enabled := (Spinner.timerL.get s).is_enabled } b,
   fun b => Spinner.timerL.put { Spinner.timerL.get b with interval := (Spinner.timerL.get s).interval } b]
  [fun b => { b with height := s.height },
   fun b => { b with length := s.length },
   fun b => { b with damping := s.damping },
   fun b => { b with angle_max := s.angle_max },
   fun b => { b with angle_min := s.angle_min },
   fun b => { b with elasticity := s.elasticity },
   fun b => { b with is_visible := s.is_visible },
   fun b => { b with show_bracket := s.show_bracket },
   fun b => { b with material := s.material },
   fun b => { b with image := s.image },
   fun b => { b with surface := s.surface },
   fun b => { b with name := s.name },
   fun b => { b with is_reflection_enabled := s.is_reflection_enabled },
   fun b => { b with shared := { b.shared with part_group_name := s.shared.part_group_name } }])

theorem Spinner.json_fields {keeps : F32 → Prop} {s : Spinner} (h : s.JsonOk keeps) :
    FieldsOK keeps s Spinner.jsonFields s.jsonPuts :=
  (.append (.cons (req_ok jVertex2D_ok h.center)
    (.cons (req_ok jF32_ok h.rotation)
    .nil))
    (.append timer_ok
    (.cons (req_ok jF32_ok h.height)
    (.cons (req_ok jF32_ok h.length)
    (.cons (req_ok jF32_ok h.damping)
    (.cons (req_ok jF32_ok h.angle_max)
    (.cons (req_ok jF32_ok h.angle_min)
    (.cons (req_ok jF32_ok h.elasticity)
    (.cons (req_ok jBool_ok trivial)
    (.cons (req_ok jBool_ok trivial)
    (.cons (req_ok jStr_ok trivial)
    (.cons (req_ok jStr_ok trivial)
    (.cons (req_ok jStr_ok trivial)
    (.cons (req_ok jStr_ok trivial)
    (.cons (opt_ok jBool_ok (fun _ _ => trivial))
    (.cons (optSkip_ok jStr_ok (fun _ _ => trivial))
    .nil))))))))))))))))

theorem Spinner.json_names : NamesOK Spinner.jsonFields := by decide +kernel

theorem Spinner.json_puts (s : Spinner) : s.jsonPuts.foldl (fun b p => p b) Spinner.jsonBase = s.jsonPart := rfl

theorem Spinner.json_back {keeps : F32 → Prop} {s : Spinner} (h : s.JsonOk keeps) :
    jSpinner.ofJ (jSpinner.toJ s) = .ok s.jsonPart :=
  (readJ_writeJ (json_fields h) json_names).trans (congrArg Except.ok s.json_puts)

theorem Spinner.json_valid {keeps : F32 → Prop} {s : Spinner} (h : s.JsonOk keeps) : (jSpinner.toJ s).Valid keeps :=
  writeJ_valid (json_fields h) json_names

def Ramp.jsonPuts (s : Ramp) : List (Ramp → Ramp) :=
  List.append [fun b => { b with height_bottom := s.height_bottom },
   fun b => { b with height_top := s.height_top },
   fun b => { b with width_bottom := s.width_bottom },
   fun b => { b with width_top := s.width_top },
   fun b => { b with material := s.material }]
  (List.append [fun b => Ramp.timerL.put { Ramp.timerL.get b with is_enabled := (Ramp.timerL.get s).is_enabled } b,
   fun b => Ramp.timerL.put { Ramp.timerL.get b with interval := (Ramp.timerL.get s).interval } b]
  [fun b => { b with ramp_type := s.ramp_type },
   fun b => { b with name := s.name },
   fun b => { b with image := s.image },
   fun b => { b with image_alignment := s.image_alignment },
   fun b => { b with image_walls := s.image_walls },
   fun b => { b with left_wall_height := s.left_wall_height },
   fun b => { b with right_wall_height := s.right_wall_height },
   fun b => { b with left_wall_height_visible := s.left_wall_height_visible },
   fun b => { b with right_wall_height_visible := s.right_wall_height_visible },
   fun b => { b with hit_event := s.hit_event },
   fun b => { b with threshold := s.threshold },
   fun b => { b with elasticity := s.elasticity },
   fun b => { b with friction := s.friction },
   fun b => { b with scatter := s.scatter },
   fun b => { b with is_collidable := s.is_collidable },
   fun b => { b with is_visible := s.is_visible },
   fun b => { b with depth_bias := s.depth_bias },
   fun b => { b with wire_diameter := s.wire_diameter },
   fun b => { b with wire_distance_x := s.wire_distance_x },
   fun b => { b with wire_distance_y := s.wire_distance_y },
   fun b => { b with is_reflection_enabled := s.is_reflection_enabled },
   fun b => { b with physics_material := s.physics_material },
   fun b => { b with overwrite_physics := s.overwrite_physics },
   fun b => { b with drag_points := s.drag_points },
   fun b => { b with shared := { b.shared with part_group_name := s.shared.part_group_name } }])

theorem Ramp.json_fields {keeps : F32 → Prop} {s : Ramp} (h : s.JsonOk keeps) :
    FieldsOK keeps s Ramp.jsonFields s.jsonPuts :=
  (.append (.cons (req_ok jF32_ok h.height_bottom)
    (.cons (req_ok jF32_ok h.height_top)
    (.cons (req_ok jF32_ok h.width_bottom)
    (.cons (req_ok jF32_ok h.width_top)
    (.cons (req_ok jStr_ok trivial)
    .nil)))))
    (.append timer_ok
    (.cons (req_ok RampType.codec_ok trivial)
    (.cons (req_ok jStr_ok trivial)
    (.cons (req_ok jStr_ok trivial)
    (.cons (req_ok RampImageAlignment.codec_ok trivial)
    (.cons (req_ok jBool_ok trivial)
    (.cons (req_ok jF32_ok h.left_wall_height)
    (.cons (req_ok jF32_ok h.right_wall_height)
    (.cons (req_ok jF32_ok h.left_wall_height_visible)
    (.cons (req_ok jF32_ok h.right_wall_height_visible)
    (.cons (opt_ok jBool_ok (fun _ _ => trivial))
    (.cons (opt_ok jF32_ok h.threshold)
    (.cons (req_ok jF32_ok h.elasticity)
    (.cons (req_ok jF32_ok h.friction)
    (.cons (req_ok jF32_ok h.scatter)
    (.cons (req_ok jBool_ok trivial)
    (.cons (req_ok jBool_ok trivial)
    (.cons (req_ok jF32_ok h.depth_bias)
    (.cons (req_ok jF32_ok h.wire_diameter)
    (.cons (req_ok jF32_ok h.wire_distance_x)
    (.cons (req_ok jF32_ok h.wire_distance_y)
    (.cons (opt_ok jBool_ok (fun _ _ => trivial))
    (.cons (opt_ok jStr_ok (fun _ _ => trivial))
    (.cons (opt_ok jBool_ok (fun _ _ => trivial))
    (.cons (req_ok (jVec_ok jDragPoint_ok) h.drag_points)
    (.cons (optSkip_ok jStr_ok (fun _ _ => trivial))
    .nil)))))))))))))))))))))))))))

theorem Ramp.json_names : NamesOK Ramp.jsonFields := by decide +kernel

theorem Ramp.json_puts (s : Ramp) : s.jsonPuts.foldl (fun b p => p b) Ramp.jsonBase = s.jsonPart := rfl

theorem Ramp.json_back {keeps : F32 → Prop} {s : Ramp} (h : s.JsonOk keeps) :
    jRamp.ofJ (jRamp.toJ s) = .ok s.jsonPart :=
  (readJ_writeJ (json_fields h) json_names).trans (congrArg Except.ok s.json_puts)

theorem Ramp.json_valid {keeps : F32 → Prop} {s : Ramp} (h : s.JsonOk keeps) : (jRamp.toJ s).Valid keeps :=
  writeJ_valid (json_fields h) json_names

def Reel.jsonPuts (s : Reel) : List (Reel → Reel) :=
  List.append [fun b => { b with ver1 := s.ver1 },
   fun b => { b with ver2 := s.ver2 },
   fun b => { b with back_color := s.back_color }]
  (List.append [fun b => Reel.timerL.put { Reel.timerL.get b with is_enabled := (Reel.timerL.get s).is_enabled } b,
   fun b => Reel.timerL.put { Reel.timerL.get b with interval := (Reel.timerL.get s).interval } b]
  [fun b => { b with is_transparent := s.is_transparent },
   fun b => { b with image := s.image },
   fun b => { b with sound := s.sound },
   fun b => { b with name := s.name },
   fun b => { b with width := s.width },
   fun b => { b with height := s.height },
   fun b => { b with reel_count := s.reel_count },
   fun b => { b with reel_spacing := s.reel_spacing },
   fun b => { b with motor_steps := s.motor_steps },
   fun b => { b with digit_range := s.digit_range },
   fun b => { b with update_interval := s.update_interval },
   fun b => { b with use_image_grid := s.use_image_grid },
   fun b => { b with is_visible := s.is_visible },
   fun b => { b with images_per_grid_row := s.images_per_grid_row },
   fun b => { b with shared := { b.shared with part_group_name := s.shared.part_group_name } }])

theorem Reel.json_fields {keeps : F32 → Prop} {s : Reel} (h : s.JsonOk keeps) :
    FieldsOK keeps s Reel.jsonFields s.jsonPuts :=
  (.append (.cons (req_ok jVertex2D_ok h.ver1)
    (.cons (req_ok jVertex2D_ok h.ver2)
    (.cons (req_ok jColor_ok trivial)
    .nil)))
    (.append timer_ok
    (.cons (req_ok jBool_ok trivial)
    (.cons (req_ok jStr_ok trivial)
    (.cons (req_ok jStr_ok trivial)
    (.cons (req_ok jStr_ok trivial)
    (.cons (req_ok jF32_ok h.width)
    (.cons (req_ok jF32_ok h.height)
    (.cons (req_ok jF32_ok h.reel_count)
    (.cons (req_ok jF32_ok h.reel_spacing)
    (.cons (req_ok jF32_ok h.motor_steps)
    (.cons (req_ok jF32_ok h.digit_range)
    (.cons (req_ok jU32_ok trivial)
    (.cons (req_ok jBool_ok trivial)
    (.cons (req_ok jBool_ok trivial)
    (.cons (req_ok jU32_ok trivial)
    (.cons (optSkip_ok jStr_ok (fun _ _ => trivial))
    .nil)))))))))))))))))

theorem Reel.json_names : NamesOK Reel.jsonFields := by decide +kernel

theorem Reel.json_puts (s : Reel) : s.jsonPuts.foldl (fun b p => p b) Reel.jsonBase = s.jsonPart := rfl

theorem Reel.json_back {keeps : F32 → Prop} {s : Reel} (h : s.JsonOk keeps) :
    jReel.ofJ (jReel.toJ s) = .ok s.jsonPart :=
  (readJ_writeJ (json_fields h) json_names).trans (congrArg Except.ok s.json_puts)

theorem Reel.json_valid {keeps : F32 → Prop} {s : Reel} (h : s.JsonOk keeps) : (jReel.toJ s).Valid keeps :=
  writeJ_valid (json_fields h) json_names

def LightSequencer.jsonPuts (s : LightSequencer) : List (LightSequencer → LightSequencer) :=
  List.append [fun b => { b with center := s.center },
   fun b => { b with collection := s.collection },
   fun b => { b with pos_x := s.pos_x },
   fun b => { b with pos_y := s.pos_y },
   fun b => { b with update_interval := s.update_interval }]
  (List.append [fun b => LightSequencer.timerL.put { LightSequencer.timerL.get b with is_enabled := (LightSequencer.timerL.get s).is_enabled } b,
   fun b => LightSequencer.timerL.put { LightSequencer.timerL.get b with interval := (LightSequencer.timerL.get s).interval } b]
  [fun b => { b with name := s.name },
   fun b => { b with backglass := s.backglass },
   fun b => { b with part_group_name := s.part_group_name }])

theorem LightSequencer.json_fields {keeps : F32 → Prop} {s : LightSequencer} (h : s.JsonOk keeps) :
    FieldsOK keeps s LightSequencer.jsonFields s.jsonPuts :=
  (.append (.cons (req_ok jVertex2D_ok h.center)
    (.cons (req_ok jStr_ok trivial)
    (.cons (req_ok jF32_ok h.pos_x)
    (.cons (req_ok jF32_ok h.pos_y)
    (.cons (req_ok jU32_ok trivial)
    .nil)))))
    (.append timer_ok
    (.cons (req_ok jStr_ok trivial)
    (.cons (req_ok jBool_ok trivial)
    (.cons (optSkip_ok jStr_ok (fun _ _ => trivial))
    .nil)))))

theorem LightSequencer.json_names : NamesOK LightSequencer.jsonFields := by decide +kernel

theorem LightSequencer.json_puts (s : LightSequencer) : s.jsonPuts.foldl (fun b p => p b) LightSequencer.jsonBase = s.jsonPart := rfl

theorem LightSequencer.json_back {keeps : F32 → Prop} {s : LightSequencer} (h : s.JsonOk keeps) :
    jLightSequencer.ofJ (jLightSequencer.toJ s) = .ok s.jsonPart :=
  (readJ_writeJ (json_fields h) json_names).trans (congrArg Except.ok s.json_puts)

theorem LightSequencer.json_valid {keeps : F32 → Prop} {s : LightSequencer} (h : s.JsonOk keeps) : (jLightSequencer.toJ s).Valid keeps :=
  writeJ_valid (json_fields h) json_names

def Primitive.jsonPuts (s : Primitive) : List (Primitive → Primitive) :=
  [fun b => { b with position := s.position },
   fun b => { b with size := s.size },
   fun b => { b with rot_and_tra0 := s.rot_and_tra0, rot_and_tra1 := s.rot_and_tra1, rot_and_tra2 := s.rot_and_tra2, rot_and_tra3 := s.rot_and_tra3, rot_and_tra4 := s.rot_and_tra4, rot_and_tra5 := s.rot_and_tra5, rot_and_tra6 := s.rot_and_tra6, rot_and_tra7 := s.rot_and_tra7, rot_and_tra8 := s.rot_and_tra8 },
   fun b => { b with image := s.image },
   fun b => { b with normal_map := s.normal_map },
   fun b => { b with sides := s.sides },
   fun b => { b with name := s.name },
   fun b => { b with material := s.material },
   fun b => { b with side_color := s.side_color },
   fun b => { b with is_visible := s.is_visible },
   fun b => { b with draw_textures_inside := s.draw_textures_inside },
   fun b => { b with hit_event := s.hit_event },
   fun b => { b with threshold := s.threshold },
   fun b => { b with elasticity := s.elasticity },
   fun b => { b with elasticity_falloff := s.elasticity_falloff },
   fun b => { b with friction := s.friction },
   fun b => { b with scatter := s.scatter },
   fun b => { b with edge_factor_ui := s.edge_factor_ui },
   fun b => { b with collision_reduction_factor := s.collision_reduction_factor },
   fun b => { b with is_collidable := s.is_collidable },
   fun b => { b with is_toy := s.is_toy },
   fun b => { b with use_3d_mesh := s.use_3d_mesh },
   fun b => { b with static_rendering := s.static_rendering },
   fun b => { b with disable_lighting_top_old := s.disable_lighting_top_old },
   fun b => { b with disable_lighting_top := s.disable_lighting_top },
   fun b => { b with disable_lighting_below := s.disable_lighting_below },
   fun b => { b with is_reflection_enabled := s.is_reflection_enabled },
   fun b => { b with backfaces_enabled := s.backfaces_enabled },
   fun b => { b with physics_material := s.physics_material },
   fun b => { b with overwrite_physics := s.overwrite_physics },
   fun b => { b with display_texture := s.display_texture },
   fun b => { b with object_space_normal_map := s.object_space_normal_map },
   fun b => { b with min_aa_bound := s.min_aa_bound },
   fun b => { b with max_aa_bound := s.max_aa_bound },
   fun b => { b with mesh_file_name := s.mesh_file_name },
   fun b => { b with depth_bias := s.depth_bias },
   fun b => { b with add_blend := s.add_blend },
   fun b => { b with use_depth_mask := s.use_depth_mask },
   fun b => { b with alpha := s.alpha },
   fun b => { b with color := s.color },
   fun b => { b with light_map := s.light_map },
   fun b => { b with reflection_probe := s.reflection_probe },
   fun b => { b with reflection_strength := s.reflection_strength },
   fun b => { b with refraction_probe := s.refraction_probe },
   fun b => { b with refraction_thickness := s.refraction_thickness },
   fun b => { b with shared := { b.shared with part_group_name := s.shared.part_group_name } }]

theorem Primitive.json_fields {keeps : F32 → Prop} {s : Primitive} (h : s.JsonOk keeps) :
    FieldsOK keeps s Primitive.jsonFields s.jsonPuts :=
  (.cons (req_ok jVertex3D_ok h.position)
    (.cons (req_ok jVertex3D_ok h.size)
    (.cons (rotAndTra_ok h.rot_and_tra)
    (.cons (req_ok jStr_ok trivial)
    (.cons (opt_ok jStr_ok (fun _ _ => trivial))
    (.cons (req_ok jU32_ok trivial)
    (.cons (req_ok jStr_ok trivial)
    (.cons (req_ok jStr_ok trivial)
    (.cons (req_ok jColor_ok trivial)
    (.cons (req_ok jBool_ok trivial)
    (.cons (req_ok jBool_ok trivial)
    (.cons (req_ok jBool_ok trivial)
    (.cons (req_ok jF32_ok h.threshold)
    (.cons (req_ok jF32_ok h.elasticity)
    (.cons (req_ok jF32_ok h.elasticity_falloff)
    (.cons (req_ok jF32_ok h.friction)
    (.cons (req_ok jF32_ok h.scatter)
    (.cons (req_ok jF32_ok h.edge_factor_ui)
    (.cons (opt_ok jF32_ok h.collision_reduction_factor)
    (.cons (req_ok jBool_ok trivial)
    (.cons (req_ok jBool_ok trivial)
    (.cons (req_ok jBool_ok trivial)
    (.cons (req_ok jBool_ok trivial)
    (.cons (opt_ok jF32_ok h.disable_lighting_top_old)
    (.cons (opt_ok jF32_ok h.disable_lighting_top)
    (.cons (opt_ok jF32_ok h.disable_lighting_below)
    (.cons (opt_ok jBool_ok (fun _ _ => trivial))
    (.cons (opt_ok jBool_ok (fun _ _ => trivial))
    (.cons (opt_ok jStr_ok (fun _ _ => trivial))
    (.cons (opt_ok jBool_ok (fun _ _ => trivial))
    (.cons (opt_ok jBool_ok (fun _ _ => trivial))
    (.cons (opt_ok jBool_ok (fun _ _ => trivial))
    (.cons (opt_ok jVertex3D_ok h.min_aa_bound)
    (.cons (opt_ok jVertex3D_ok h.max_aa_bound)
    (.cons (opt_ok jStr_ok (fun _ _ => trivial))
    (.cons (req_ok jF32_ok h.depth_bias)
    (.cons (opt_ok jBool_ok (fun _ _ => trivial))
    (.cons (opt_ok jBool_ok (fun _ _ => trivial))
    (.cons (opt_ok jF32_ok h.alpha)
    (.cons (opt_ok jColor_ok (fun _ _ => trivial))
    (.cons (opt_ok jStr_ok (fun _ _ => trivial))
    (.cons (opt_ok jStr_ok (fun _ _ => trivial))
    (.cons (opt_ok jF32_ok h.reflection_strength)
    (.cons (opt_ok jStr_ok (fun _ _ => trivial))
    (.cons (opt_ok jF32_ok h.refraction_thickness)
    (.cons (optSkip_ok jStr_ok (fun _ _ => trivial))
    .nil))))))))))))))))))))))))))))))))))))))))))))))

theorem Primitive.json_names : NamesOK Primitive.jsonFields := by decide +kernel

theorem Primitive.json_puts (s : Primitive) : s.jsonPuts.foldl (fun b p => p b) Primitive.jsonBase = s.jsonPart := rfl

theorem Primitive.json_back {keeps : F32 → Prop} {s : Primitive} (h : s.JsonOk keeps) :
    jPrimitive.ofJ (jPrimitive.toJ s) = .ok s.jsonPart :=
  (readJ_writeJ (json_fields h) json_names).trans (congrArg Except.ok s.json_puts)

theorem Primitive.json_valid {keeps : F32 → Prop} {s : Primitive} (h : s.JsonOk keeps) : (jPrimitive.toJ s).Valid keeps :=
  writeJ_valid (json_fields h) json_names

def Flasher.jsonPuts (s : Flasher) : List (Flasher → Flasher) :=
  List.append [fun b => { b with height := s.height },
   fun b => { b with pos_x := s.pos_x },
   fun b => { b with pos_y := s.pos_y },
   fun b => { b with rot_x := s.rot_x },
   fun b => { b with rot_y := s.rot_y },
   fun b => { b with rot_z := s.rot_z },
   fun b => { b with color := s.color }]
  (List.append [fun b => Flasher.timerL.put { Flasher.timerL.get b with is_enabled := (Flasher.timerL.get s).is_enabled } b,
   fun b => Flasher.timerL.put { Flasher.timerL.get b with interval := (Flasher.timerL.get s).interval } b]
  [fun b => { b with name := s.name },
   fun b => { b with image_a := s.image_a },
   fun b => { b with image_b := s.image_b },
   fun b => { b with alpha := s.alpha },
   fun b => { b with modulate_vs_add := s.modulate_vs_add },
   fun b => { b with is_visible := s.is_visible },
   fun b => { b with add_blend := s.add_blend },
   fun b => { b with is_dmd := s.is_dmd },
   fun b => { b with render_mode := s.render_mode },
   fun b => { b with render_style := s.render_style },
   fun b => { b with glass_roughness := s.glass_roughness },
   fun b => { b with glass_ambient := s.glass_ambient },
   fun b => { b with glass_pad_top := s.glass_pad_top },
   fun b => { b with glass_pad_bottom := s.glass_pad_bottom },
   fun b => { b with glass_pad_left := s.glass_pad_left },
   fun b => { b with glass_pad_right := s.glass_pad_right },
   fun b => { b with image_src_link := s.image_src_link },
   fun b => { b with display_texture := s.display_texture },
   fun b => { b with depth_bias := s.depth_bias },
   fun b => { b with image_alignment := s.image_alignment },
   fun b => { b with filter := s.filter },
   fun b => { b with filter_amount := s.filter_amount },
   fun b => { b with light_map := s.light_map },
   fun b => { b with backglass := s.backglass },
   fun b => { b with shared := { b.shared with part_group_name := s.shared.part_group_name } },
   fun b => { b with drag_points := s.drag_points }])

theorem Flasher.json_fields {keeps : F32 → Prop} {s : Flasher} (h : s.JsonOk keeps) :
    FieldsOK keeps s Flasher.jsonFields s.jsonPuts :=
  (.append (.cons (req_ok jF32_ok h.height)
    (.cons (req_ok jF32_ok h.pos_x)
    (.cons (req_ok jF32_ok h.pos_y)
    (.cons (req_ok jF32_ok h.rot_x)
    (.cons (req_ok jF32_ok h.rot_y)
    (.cons (req_ok jF32_ok h.rot_z)
    (.cons (req_ok jColor_ok trivial)
    .nil)))))))
    (.append timer_ok
    (.cons (req_ok jStr_ok trivial)
    (.cons (req_ok jStr_ok trivial)
    (.cons (req_ok jStr_ok trivial)
    (.cons (req_ok jI32_ok trivial)
    (.cons (req_ok jF32_ok h.modulate_vs_add)
    (.cons (req_ok jBool_ok trivial)
    (.cons (req_ok jBool_ok trivial)
    (.cons (opt_ok jBool_ok (fun _ _ => trivial))
    (.cons (opt_ok RenderMode.codec_ok (fun _ _ => trivial))
    (.cons (opt_ok jU32_ok (fun _ _ => trivial))
    (.cons (opt_ok jF32_ok h.glass_roughness)
    (.cons (opt_ok jU32_ok (fun _ _ => trivial))
    (.cons (opt_ok jF32_ok h.glass_pad_top)
    (.cons (opt_ok jF32_ok h.glass_pad_bottom)
    (.cons (opt_ok jF32_ok h.glass_pad_left)
    (.cons (opt_ok jF32_ok h.glass_pad_right)
    (.cons (opt_ok jStr_ok (fun _ _ => trivial))
    (.cons (req_ok jBool_ok trivial)
    (.cons (req_ok jF32_ok h.depth_bias)
    (.cons (req_ok RampImageAlignment.codec_ok trivial)
    (.cons (req_ok Filter.codec_ok trivial)
    (.cons (req_ok jU32_ok trivial)
    (.cons (opt_ok jStr_ok (fun _ _ => trivial))
    (.cons (opt_ok jBool_ok (fun _ _ => trivial))
    (.cons (optSkip_ok jStr_ok (fun _ _ => trivial))
    (.cons (req_ok (jVec_ok jDragPoint_ok) h.drag_points)
    .nil))))))))))))))))))))))))))))

theorem Flasher.json_names : NamesOK Flasher.jsonFields := by decide +kernel

theorem Flasher.json_puts (s : Flasher) : s.jsonPuts.foldl (fun b p => p b) Flasher.jsonBase = s.jsonPart := rfl

theorem Flasher.json_back {keeps : F32 → Prop} {s : Flasher} (h : s.JsonOk keeps) :
    jFlasher.ofJ (jFlasher.toJ s) = .ok s.jsonPart :=
  (readJ_writeJ (json_fields h) json_names).trans (congrArg Except.ok s.json_puts)

theorem Flasher.json_valid {keeps : F32 → Prop} {s : Flasher} (h : s.JsonOk keeps) : (jFlasher.toJ s).Valid keeps :=
  writeJ_valid (json_fields h) json_names

def Rubber.jsonPuts (s : Rubber) : List (Rubber → Rubber) :=
  List.append [fun b => { b with height := s.height },
   fun b => { b with hit_height := s.hit_height },
   fun b => { b with thickness := s.thickness },
   fun b => { b with hit_event := s.hit_event },
   fun b => { b with material := s.material }]
  (List.append [fun b => Rubber.timerL.put { Rubber.timerL.get b with is_enabled := (Rubber.timerL.get s).is_enabled } b,
   fun b => Rubber.timerL.put { Rubber.timerL.get b with interval := (Rubber.timerL.get s).interval } b]
  [fun b => { b with name := s.name },
   fun b => { b with image := s.image },
   fun b => { b with elasticity := s.elasticity },
   fun b => { b with elasticity_falloff := s.elasticity_falloff },
   fun b => { b with friction := s.friction },
   fun b => { b with scatter := s.scatter },
   fun b => { b with is_collidable := s.is_collidable },
   fun b => { b with is_visible := s.is_visible },
   fun b => { b with radb := s.radb },
   fun b => { b with static_rendering := s.static_rendering },
   fun b => { b with show_in_editor := s.show_in_editor },
   fun b => { b with rot_x := s.rot_x },
   fun b => { b with rot_y := s.rot_y },
   fun b => { b with rot_z := s.rot_z },
   fun b => { b with is_reflection_enabled := s.is_reflection_enabled },
   fun b => { b with physics_material := s.physics_material },
   fun b => { b with overwrite_physics := s.overwrite_physics },
   fun b => { b with drag_points := s.drag_points },
   fun b => { b with shared := { b.shared with part_group_name := s.shared.part_group_name } }])

theorem Rubber.json_fields {keeps : F32 → Prop} {s : Rubber} (h : s.JsonOk keeps) :
    FieldsOK keeps s Rubber.jsonFields s.jsonPuts :=
  (.append (.cons (req_ok jF32_ok h.height)
    (.cons (opt_ok jF32_ok h.hit_height)
    (.cons (req_ok jI32_ok trivial)
    (.cons (req_ok jBool_ok trivial)
    (.cons (req_ok jStr_ok trivial)
    .nil)))))
    (.append timer_ok
    (.cons (req_ok jStr_ok trivial)
    (.cons (req_ok jStr_ok trivial)
    (.cons (req_ok jF32_ok h.elasticity)
    (.cons (req_ok jF32_ok h.elasticity_falloff)
    (.cons (req_ok jF32_ok h.friction)
    (.cons (req_ok jF32_ok h.scatter)
    (.cons (req_ok jBool_ok trivial)
    (.cons (req_ok jBool_ok trivial)
    (.cons (opt_ok jF32_ok h.radb)
    (.cons (req_ok jBool_ok trivial)
    (.cons (req_ok jBool_ok trivial)
    (.cons (req_ok jF32_ok h.rot_x)
    (.cons (req_ok jF32_ok h.rot_y)
    (.cons (req_ok jF32_ok h.rot_z)
    (.cons (opt_ok jBool_ok (fun _ _ => trivial))
    (.cons (opt_ok jStr_ok (fun _ _ => trivial))
    (.cons (opt_ok jBool_ok (fun _ _ => trivial))
    (.cons (req_ok (jVec_ok jDragPoint_ok) h.drag_points)
    (.cons (optSkip_ok jStr_ok (fun _ _ => trivial))
    .nil)))))))))))))))))))))

theorem Rubber.json_names : NamesOK Rubber.jsonFields := by decide +kernel

theorem Rubber.json_puts (s : Rubber) : s.jsonPuts.foldl (fun b p => p b) Rubber.jsonBase = s.jsonPart := rfl

theorem Rubber.json_back {keeps : F32 → Prop} {s : Rubber} (h : s.JsonOk keeps) :
    jRubber.ofJ (jRubber.toJ s) = .ok s.jsonPart :=
  (readJ_writeJ (json_fields h) json_names).trans (congrArg Except.ok s.json_puts)

theorem Rubber.json_valid {keeps : F32 → Prop} {s : Rubber} (h : s.JsonOk keeps) : (jRubber.toJ s).Valid keeps :=
  writeJ_valid (json_fields h) json_names

def HitTarget.jsonPuts (s : HitTarget) : List (HitTarget → HitTarget) :=
  List.append [fun b => { b with position := s.position },
   fun b => { b with size := s.size },
   fun b => { b with rot_z := s.rot_z },
   fun b => { b with image := s.image },
   fun b => { b with target_type := s.target_type },
   fun b => { b with name := s.name },
   fun b => { b with material := s.material },
   fun b => { b with is_visible := s.is_visible },
   fun b => { b with is_legacy := s.is_legacy },
   fun b => { b with use_hit_event := s.use_hit_event },
   fun b => { b with threshold := s.threshold },
   fun b => { b with elasticity := s.elasticity },
   fun b => { b with elasticity_falloff := s.elasticity_falloff },
   fun b => { b with friction := s.friction },
   fun b => { b with scatter := s.scatter },
   fun b => { b with is_collidable := s.is_collidable },
   fun b => { b with disable_lighting_top_old := s.disable_lighting_top_old },
   fun b => { b with disable_lighting_top := s.disable_lighting_top },
   fun b => { b with disable_lighting_below := s.disable_lighting_below },
   fun b => { b with depth_bias := s.depth_bias },
   fun b => { b with is_reflection_enabled := s.is_reflection_enabled },
   fun b => { b with is_dropped := s.is_dropped },
   fun b => { b with drop_speed := s.drop_speed }]
  (List.append [fun b => HitTarget.timerL.put { HitTarget.timerL.get b with is_enabled := (HitTarget.timerL.get s).is_enabled } b,
   fun b => HitTarget.timerL.put { HitTarget.timerL.get b with interval := (HitTarget.timerL.get s).interval } b]
  [fun b => { b with raise_delay := s.raise_delay },
   fun b => { b with physics_material := s.physics_material },
   fun b => { b with overwrite_physics := s.overwrite_physics },
   fun b => { b with shared := { b.shared with part_group_name := s.shared.part_group_name } }])

theorem HitTarget.json_fields {keeps : F32 → Prop} {s : HitTarget} (h : s.JsonOk keeps) :
    FieldsOK keeps s HitTarget.jsonFields s.jsonPuts :=
  (.append (.cons (req_ok jVertex3D_ok h.position)
    (.cons (req_ok jVertex3D_ok h.size)
    (.cons (req_ok jF32_ok h.rot_z)
    (.cons (req_ok jStr_ok trivial)
    (.cons (req_ok TargetType.codec_ok trivial)
    (.cons (req_ok jStr_ok trivial)
    (.cons (req_ok jStr_ok trivial)
    (.cons (req_ok jBool_ok trivial)
    (.cons (req_ok jBool_ok trivial)
    (.cons (req_ok jBool_ok trivial)
    (.cons (req_ok jF32_ok h.threshold)
    (.cons (req_ok jF32_ok h.elasticity)
    (.cons (req_ok jF32_ok h.elasticity_falloff)
    (.cons (req_ok jF32_ok h.friction)
    (.cons (req_ok jF32_ok h.scatter)
    (.cons (req_ok jBool_ok trivial)
    (.cons (opt_ok jF32_ok h.disable_lighting_top_old)
    (.cons (opt_ok jF32_ok h.disable_lighting_top)
    (.cons (opt_ok jF32_ok h.disable_lighting_below)
    (.cons (req_ok jF32_ok h.depth_bias)
    (.cons (req_ok jBool_ok trivial)
    (.cons (req_ok jBool_ok trivial)
    (.cons (req_ok jF32_ok h.drop_speed)
    .nil)))))))))))))))))))))))
    (.append timer_ok
    (.cons (opt_ok jU32_ok (fun _ _ => trivial))
    (.cons (opt_ok jStr_ok (fun _ _ => trivial))
    (.cons (opt_ok jBool_ok (fun _ _ => trivial))
    (.cons (optSkip_ok jStr_ok (fun _ _ => trivial))
    .nil))))))

theorem HitTarget.json_names : NamesOK HitTarget.jsonFields := by decide +kernel

theorem HitTarget.json_puts (s : HitTarget) : s.jsonPuts.foldl (fun b p => p b) HitTarget.jsonBase = s.jsonPart := rfl

theorem HitTarget.json_back {keeps : F32 → Prop} {s : HitTarget} (h : s.JsonOk keeps) :
    jHitTarget.ofJ (jHitTarget.toJ s) = .ok s.jsonPart :=
  (readJ_writeJ (json_fields h) json_names).trans (congrArg Except.ok s.json_puts)

theorem HitTarget.json_valid {keeps : F32 → Prop} {s : HitTarget} (h : s.JsonOk keeps) : (jHitTarget.toJ s).Valid keeps :=
  writeJ_valid (json_fields h) json_names

def Ball.jsonPuts (s : Ball) : List (Ball → Ball) :=
  List.append [fun b => { b with pos := s.pos },
   fun b => { b with radius := s.radius },
   fun b => { b with mass := s.mass },
   fun b => { b with force_reflection := s.force_reflection },
   fun b => { b with decal_mode := s.decal_mode },
   fun b => { b with image := s.image },
   fun b => { b with image_decal := s.image_decal },
   fun b => { b with bulb_intensity_scale := s.bulb_intensity_scale },
   fun b => { b with playfield_reflection_strength := s.playfield_reflection_strength },
   fun b => { b with color := s.color },
   fun b => { b with spherical_mapping := s.spherical_mapping },
   fun b => { b with is_reflection_enabled := s.is_reflection_enabled }]
  (List.append [fun b => Ball.timerL.put { Ball.timerL.get b with is_enabled := (Ball.timerL.get s).is_enabled } b,
   fun b => Ball.timerL.put { Ball.timerL.get b with interval := (Ball.timerL.get s).interval } b]
  [fun b => { b with name := s.name },
   fun b => { b with shared := { b.shared with part_group_name := s.shared.part_group_name } }])

theorem Ball.json_fields {keeps : F32 → Prop} {s : Ball} (h : s.JsonOk keeps) :
    FieldsOK keeps s Ball.jsonFields s.jsonPuts :=
  (.append (.cons (req_ok jVertex3D_ok h.pos)
    (.cons (req_ok jF32_ok h.radius)
    (.cons (req_ok jF32_ok h.mass)
    (.cons (req_ok jBool_ok trivial)
    (.cons (req_ok jBool_ok trivial)
    (.cons (req_ok jStr_ok trivial)
    (.cons (req_ok jStr_ok trivial)
    (.cons (req_ok jF32_ok h.bulb_intensity_scale)
    (.cons (req_ok jF32_ok h.playfield_reflection_strength)
    (.cons (req_ok jColor_ok trivial)
    (.cons (req_ok jBool_ok trivial)
    (.cons (req_ok jBool_ok trivial)
    .nil))))))))))))
    (.append timer_ok
    (.cons (req_ok jStr_ok trivial)
    (.cons (optSkip_ok jStr_ok (fun _ _ => trivial))
    .nil))))

theorem Ball.json_names : NamesOK Ball.jsonFields := by decide +kernel

theorem Ball.json_puts (s : Ball) : s.jsonPuts.foldl (fun b p => p b) Ball.jsonBase = s.jsonPart := rfl

theorem Ball.json_back {keeps : F32 → Prop} {s : Ball} (h : s.JsonOk keeps) :
    jBall.ofJ (jBall.toJ s) = .ok s.jsonPart :=
  (readJ_writeJ (json_fields h) json_names).trans (congrArg Except.ok s.json_puts)

theorem Ball.json_valid {keeps : F32 → Prop} {s : Ball} (h : s.JsonOk keeps) : (jBall.toJ s).Valid keeps :=
  writeJ_valid (json_fields h) json_names

def PartGroup.jsonPuts (s : PartGroup) : List (PartGroup → PartGroup) :=
  List.append [fun b => { b with name := s.name },
   fun b => { b with center := s.center }]
  (List.append [fun b => PartGroup.timerL.put { PartGroup.timerL.get b with is_enabled := (PartGroup.timerL.get s).is_enabled } b,
   fun b => PartGroup.timerL.put { PartGroup.timerL.get b with interval := (PartGroup.timerL.get s).interval } b]
  [fun b => { b with backglass := s.backglass },
   fun b => { b with visibility_mask := s.visibility_mask },
   fun b => { b with space_reference := s.space_reference },
   fun b => { b with player_mode_visibility_mask := s.player_mode_visibility_mask },
   fun b => { b with is_locked := s.is_locked },
   fun b => { b with editor_layer_name := s.editor_layer_name },
   fun b => { b with editor_layer_visibility := s.editor_layer_visibility }])

theorem PartGroup.json_fields {keeps : F32 → Prop} {s : PartGroup} (h : s.JsonOk keeps) :
    FieldsOK keeps s PartGroup.jsonFields s.jsonPuts :=
  (.append (.cons (req_ok jStr_ok trivial)
    (.cons (req_ok jVertex2D_ok h.center)
    .nil))
    (.append timer_ok
    (.cons (req_ok jBool_ok trivial)
    (.cons (optSkip_ok jU32_ok (fun _ _ => trivial))
    (.cons (req_ok SpaceReference.codec_ok trivial)
    (.cons (optSkip_ok jU32_ok (fun _ _ => trivial))
    (.cons (req_ok jBool_ok trivial)
    (.cons (opt_ok jStr_ok (fun _ _ => trivial))
    (.cons (opt_ok jBool_ok (fun _ _ => trivial))
    .nil)))))))))

theorem PartGroup.json_names : NamesOK PartGroup.jsonFields := by decide +kernel

theorem PartGroup.json_puts (s : PartGroup) : s.jsonPuts.foldl (fun b p => p b) PartGroup.jsonBase = s.jsonPart := rfl

theorem PartGroup.json_back {keeps : F32 → Prop} {s : PartGroup} (h : s.JsonOk keeps) :
    jPartGroup.ofJ (jPartGroup.toJ s) = .ok s.jsonPart :=
  (readJ_writeJ (json_fields h) json_names).trans (congrArg Except.ok s.json_puts)

theorem PartGroup.json_valid {keeps : F32 → Prop} {s : PartGroup} (h : s.JsonOk keeps) : (jPartGroup.toJ s).Valid keeps :=
  writeJ_valid (json_fields h) json_names

end Vpin
