import Verif.Lemmas.Enums
import Verif.Lemmas.Tame
import Verif.Lemmas.ItemData
import Verif.Lemmas.Items.DragPoint
/-
`Ramp`: reading back what was written, and what the reader guarantees for every input.
Generated by tools/gen_items.py.
-/
namespace Vpin


theorem Ramp.reads {s : Ramp} (h : s.WF) : OReads Ramp.arms s.ops Ramp.init s := by
  unfold Ramp.ops
  refine .segTo ⟨s.height_bottom, Ramp.init.height_top, Ramp.init.width_bottom, Ramp.init.width_top, Ramp.init.material, Ramp.init.ramp_type, Ramp.init.name, Ramp.init.image, Ramp.init.image_alignment, Ramp.init.image_walls, Ramp.init.left_wall_height, Ramp.init.right_wall_height, Ramp.init.left_wall_height_visible, Ramp.init.right_wall_height_visible, Ramp.init.hit_event, Ramp.init.threshold, Ramp.init.elasticity, Ramp.init.friction, Ramp.init.scatter, Ramp.init.is_collidable, Ramp.init.is_visible, Ramp.init.depth_bias, Ramp.init.wire_diameter, Ramp.init.wire_distance_x, Ramp.init.wire_distance_y, Ramp.init.is_reflection_enabled, Ramp.init.physics_material, Ramp.init.overwrite_physics, Ramp.init.drag_points, Ramp.init.timer, Ramp.init.shared⟩
    (f32_rt.req trivial rfl) rfl ?_
  refine .segTo ⟨s.height_bottom, s.height_top, Ramp.init.width_bottom, Ramp.init.width_top, Ramp.init.material, Ramp.init.ramp_type, Ramp.init.name, Ramp.init.image, Ramp.init.image_alignment, Ramp.init.image_walls, Ramp.init.left_wall_height, Ramp.init.right_wall_height, Ramp.init.left_wall_height_visible, Ramp.init.right_wall_height_visible, Ramp.init.hit_event, Ramp.init.threshold, Ramp.init.elasticity, Ramp.init.friction, Ramp.init.scatter, Ramp.init.is_collidable, Ramp.init.is_visible, Ramp.init.depth_bias, Ramp.init.wire_diameter, Ramp.init.wire_distance_x, Ramp.init.wire_distance_y, Ramp.init.is_reflection_enabled, Ramp.init.physics_material, Ramp.init.overwrite_physics, Ramp.init.drag_points, Ramp.init.timer, Ramp.init.shared⟩
    (f32_rt.req trivial rfl) rfl ?_
  refine .segTo ⟨s.height_bottom, s.height_top, s.width_bottom, Ramp.init.width_top, Ramp.init.material, Ramp.init.ramp_type, Ramp.init.name, Ramp.init.image, Ramp.init.image_alignment, Ramp.init.image_walls, Ramp.init.left_wall_height, Ramp.init.right_wall_height, Ramp.init.left_wall_height_visible, Ramp.init.right_wall_height_visible, Ramp.init.hit_event, Ramp.init.threshold, Ramp.init.elasticity, Ramp.init.friction, Ramp.init.scatter, Ramp.init.is_collidable, Ramp.init.is_visible, Ramp.init.depth_bias, Ramp.init.wire_diameter, Ramp.init.wire_distance_x, Ramp.init.wire_distance_y, Ramp.init.is_reflection_enabled, Ramp.init.physics_material, Ramp.init.overwrite_physics, Ramp.init.drag_points, Ramp.init.timer, Ramp.init.shared⟩
    (f32_rt.req trivial rfl) rfl ?_
  refine .segTo ⟨s.height_bottom, s.height_top, s.width_bottom, s.width_top, Ramp.init.material, Ramp.init.ramp_type, Ramp.init.name, Ramp.init.image, Ramp.init.image_alignment, Ramp.init.image_walls, Ramp.init.left_wall_height, Ramp.init.right_wall_height, Ramp.init.left_wall_height_visible, Ramp.init.right_wall_height_visible, Ramp.init.hit_event, Ramp.init.threshold, Ramp.init.elasticity, Ramp.init.friction, Ramp.init.scatter, Ramp.init.is_collidable, Ramp.init.is_visible, Ramp.init.depth_bias, Ramp.init.wire_diameter, Ramp.init.wire_distance_x, Ramp.init.wire_distance_y, Ramp.init.is_reflection_enabled, Ramp.init.physics_material, Ramp.init.overwrite_physics, Ramp.init.drag_points, Ramp.init.timer, Ramp.init.shared⟩
    (f32_rt.req trivial rfl) rfl ?_
  refine .segTo ⟨s.height_bottom, s.height_top, s.width_bottom, s.width_top, s.material, Ramp.init.ramp_type, Ramp.init.name, Ramp.init.image, Ramp.init.image_alignment, Ramp.init.image_walls, Ramp.init.left_wall_height, Ramp.init.right_wall_height, Ramp.init.left_wall_height_visible, Ramp.init.right_wall_height_visible, Ramp.init.hit_event, Ramp.init.threshold, Ramp.init.elasticity, Ramp.init.friction, Ramp.init.scatter, Ramp.init.is_collidable, Ramp.init.is_visible, Ramp.init.depth_bias, Ramp.init.wire_diameter, Ramp.init.wire_distance_x, Ramp.init.wire_distance_y, Ramp.init.is_reflection_enabled, Ramp.init.physics_material, Ramp.init.overwrite_physics, Ramp.init.drag_points, Ramp.init.timer, Ramp.init.shared⟩
    (string_rt.req h.material rfl) rfl ?_
  refine .segTo ⟨s.height_bottom, s.height_top, s.width_bottom, s.width_top, s.material, Ramp.init.ramp_type, Ramp.init.name, Ramp.init.image, Ramp.init.image_alignment, Ramp.init.image_walls, Ramp.init.left_wall_height, Ramp.init.right_wall_height, Ramp.init.left_wall_height_visible, Ramp.init.right_wall_height_visible, Ramp.init.hit_event, Ramp.init.threshold, Ramp.init.elasticity, Ramp.init.friction, Ramp.init.scatter, Ramp.init.is_collidable, Ramp.init.is_visible, Ramp.init.depth_bias, Ramp.init.wire_diameter, Ramp.init.wire_distance_x, Ramp.init.wire_distance_y, Ramp.init.is_reflection_enabled, Ramp.init.physics_material, Ramp.init.overwrite_physics, Ramp.init.drag_points, s.timer, Ramp.init.shared⟩
    (timer_reads (L := Ramp.timerL) ⟨fun _ _ => rfl, fun _ _ _ => rfl, fun _ => rfl⟩ rfl rfl) rfl ?_
  refine .segTo ⟨s.height_bottom, s.height_top, s.width_bottom, s.width_top, s.material, s.ramp_type, Ramp.init.name, Ramp.init.image, Ramp.init.image_alignment, Ramp.init.image_walls, Ramp.init.left_wall_height, Ramp.init.right_wall_height, Ramp.init.left_wall_height_visible, Ramp.init.right_wall_height_visible, Ramp.init.hit_event, Ramp.init.threshold, Ramp.init.elasticity, Ramp.init.friction, Ramp.init.scatter, Ramp.init.is_collidable, Ramp.init.is_visible, Ramp.init.depth_bias, Ramp.init.wire_diameter, Ramp.init.wire_distance_x, Ramp.init.wire_distance_y, Ramp.init.is_reflection_enabled, Ramp.init.physics_material, Ramp.init.overwrite_physics, Ramp.init.drag_points, s.timer, Ramp.init.shared⟩
    (RampType.rt.req trivial rfl) rfl ?_
  refine .segTo ⟨s.height_bottom, s.height_top, s.width_bottom, s.width_top, s.material, s.ramp_type, s.name, Ramp.init.image, Ramp.init.image_alignment, Ramp.init.image_walls, Ramp.init.left_wall_height, Ramp.init.right_wall_height, Ramp.init.left_wall_height_visible, Ramp.init.right_wall_height_visible, Ramp.init.hit_event, Ramp.init.threshold, Ramp.init.elasticity, Ramp.init.friction, Ramp.init.scatter, Ramp.init.is_collidable, Ramp.init.is_visible, Ramp.init.depth_bias, Ramp.init.wire_diameter, Ramp.init.wire_distance_x, Ramp.init.wire_distance_y, Ramp.init.is_reflection_enabled, Ramp.init.physics_material, Ramp.init.overwrite_physics, Ramp.init.drag_points, s.timer, Ramp.init.shared⟩
    (wide_rt.req h.name rfl) rfl ?_
  refine .segTo ⟨s.height_bottom, s.height_top, s.width_bottom, s.width_top, s.material, s.ramp_type, s.name, s.image, Ramp.init.image_alignment, Ramp.init.image_walls, Ramp.init.left_wall_height, Ramp.init.right_wall_height, Ramp.init.left_wall_height_visible, Ramp.init.right_wall_height_visible, Ramp.init.hit_event, Ramp.init.threshold, Ramp.init.elasticity, Ramp.init.friction, Ramp.init.scatter, Ramp.init.is_collidable, Ramp.init.is_visible, Ramp.init.depth_bias, Ramp.init.wire_diameter, Ramp.init.wire_distance_x, Ramp.init.wire_distance_y, Ramp.init.is_reflection_enabled, Ramp.init.physics_material, Ramp.init.overwrite_physics, Ramp.init.drag_points, s.timer, Ramp.init.shared⟩
    (string_rt.req h.image rfl) rfl ?_
  refine .segTo ⟨s.height_bottom, s.height_top, s.width_bottom, s.width_top, s.material, s.ramp_type, s.name, s.image, s.image_alignment, Ramp.init.image_walls, Ramp.init.left_wall_height, Ramp.init.right_wall_height, Ramp.init.left_wall_height_visible, Ramp.init.right_wall_height_visible, Ramp.init.hit_event, Ramp.init.threshold, Ramp.init.elasticity, Ramp.init.friction, Ramp.init.scatter, Ramp.init.is_collidable, Ramp.init.is_visible, Ramp.init.depth_bias, Ramp.init.wire_diameter, Ramp.init.wire_distance_x, Ramp.init.wire_distance_y, Ramp.init.is_reflection_enabled, Ramp.init.physics_material, Ramp.init.overwrite_physics, Ramp.init.drag_points, s.timer, Ramp.init.shared⟩
    (RampImageAlignment.rt.req trivial rfl) rfl ?_
  refine .segTo ⟨s.height_bottom, s.height_top, s.width_bottom, s.width_top, s.material, s.ramp_type, s.name, s.image, s.image_alignment, s.image_walls, Ramp.init.left_wall_height, Ramp.init.right_wall_height, Ramp.init.left_wall_height_visible, Ramp.init.right_wall_height_visible, Ramp.init.hit_event, Ramp.init.threshold, Ramp.init.elasticity, Ramp.init.friction, Ramp.init.scatter, Ramp.init.is_collidable, Ramp.init.is_visible, Ramp.init.depth_bias, Ramp.init.wire_diameter, Ramp.init.wire_distance_x, Ramp.init.wire_distance_y, Ramp.init.is_reflection_enabled, Ramp.init.physics_material, Ramp.init.overwrite_physics, Ramp.init.drag_points, s.timer, Ramp.init.shared⟩
    (bool_rt.req trivial rfl) rfl ?_
  refine .segTo ⟨s.height_bottom, s.height_top, s.width_bottom, s.width_top, s.material, s.ramp_type, s.name, s.image, s.image_alignment, s.image_walls, s.left_wall_height, Ramp.init.right_wall_height, Ramp.init.left_wall_height_visible, Ramp.init.right_wall_height_visible, Ramp.init.hit_event, Ramp.init.threshold, Ramp.init.elasticity, Ramp.init.friction, Ramp.init.scatter, Ramp.init.is_collidable, Ramp.init.is_visible, Ramp.init.depth_bias, Ramp.init.wire_diameter, Ramp.init.wire_distance_x, Ramp.init.wire_distance_y, Ramp.init.is_reflection_enabled, Ramp.init.physics_material, Ramp.init.overwrite_physics, Ramp.init.drag_points, s.timer, Ramp.init.shared⟩
    (f32_rt.req trivial rfl) rfl ?_
  refine .segTo ⟨s.height_bottom, s.height_top, s.width_bottom, s.width_top, s.material, s.ramp_type, s.name, s.image, s.image_alignment, s.image_walls, s.left_wall_height, s.right_wall_height, Ramp.init.left_wall_height_visible, Ramp.init.right_wall_height_visible, Ramp.init.hit_event, Ramp.init.threshold, Ramp.init.elasticity, Ramp.init.friction, Ramp.init.scatter, Ramp.init.is_collidable, Ramp.init.is_visible, Ramp.init.depth_bias, Ramp.init.wire_diameter, Ramp.init.wire_distance_x, Ramp.init.wire_distance_y, Ramp.init.is_reflection_enabled, Ramp.init.physics_material, Ramp.init.overwrite_physics, Ramp.init.drag_points, s.timer, Ramp.init.shared⟩
    (f32_rt.req trivial rfl) rfl ?_
  refine .segTo ⟨s.height_bottom, s.height_top, s.width_bottom, s.width_top, s.material, s.ramp_type, s.name, s.image, s.image_alignment, s.image_walls, s.left_wall_height, s.right_wall_height, s.left_wall_height_visible, Ramp.init.right_wall_height_visible, Ramp.init.hit_event, Ramp.init.threshold, Ramp.init.elasticity, Ramp.init.friction, Ramp.init.scatter, Ramp.init.is_collidable, Ramp.init.is_visible, Ramp.init.depth_bias, Ramp.init.wire_diameter, Ramp.init.wire_distance_x, Ramp.init.wire_distance_y, Ramp.init.is_reflection_enabled, Ramp.init.physics_material, Ramp.init.overwrite_physics, Ramp.init.drag_points, s.timer, Ramp.init.shared⟩
    (f32_rt.req trivial rfl) rfl ?_
  refine .segTo ⟨s.height_bottom, s.height_top, s.width_bottom, s.width_top, s.material, s.ramp_type, s.name, s.image, s.image_alignment, s.image_walls, s.left_wall_height, s.right_wall_height, s.left_wall_height_visible, s.right_wall_height_visible, Ramp.init.hit_event, Ramp.init.threshold, Ramp.init.elasticity, Ramp.init.friction, Ramp.init.scatter, Ramp.init.is_collidable, Ramp.init.is_visible, Ramp.init.depth_bias, Ramp.init.wire_diameter, Ramp.init.wire_distance_x, Ramp.init.wire_distance_y, Ramp.init.is_reflection_enabled, Ramp.init.physics_material, Ramp.init.overwrite_physics, Ramp.init.drag_points, s.timer, Ramp.init.shared⟩
    (f32_rt.req trivial rfl) rfl ?_
  refine .segTo ⟨s.height_bottom, s.height_top, s.width_bottom, s.width_top, s.material, s.ramp_type, s.name, s.image, s.image_alignment, s.image_walls, s.left_wall_height, s.right_wall_height, s.left_wall_height_visible, s.right_wall_height_visible, s.hit_event, Ramp.init.threshold, Ramp.init.elasticity, Ramp.init.friction, Ramp.init.scatter, Ramp.init.is_collidable, Ramp.init.is_visible, Ramp.init.depth_bias, Ramp.init.wire_diameter, Ramp.init.wire_distance_x, Ramp.init.wire_distance_y, Ramp.init.is_reflection_enabled, Ramp.init.physics_material, Ramp.init.overwrite_physics, Ramp.init.drag_points, s.timer, Ramp.init.shared⟩
    (bool_rt.opt (fun v (s : Ramp) => { s with hit_event := v }) (fun _ _ => trivial) rfl rfl) rfl ?_
  refine .segTo ⟨s.height_bottom, s.height_top, s.width_bottom, s.width_top, s.material, s.ramp_type, s.name, s.image, s.image_alignment, s.image_walls, s.left_wall_height, s.right_wall_height, s.left_wall_height_visible, s.right_wall_height_visible, s.hit_event, s.threshold, Ramp.init.elasticity, Ramp.init.friction, Ramp.init.scatter, Ramp.init.is_collidable, Ramp.init.is_visible, Ramp.init.depth_bias, Ramp.init.wire_diameter, Ramp.init.wire_distance_x, Ramp.init.wire_distance_y, Ramp.init.is_reflection_enabled, Ramp.init.physics_material, Ramp.init.overwrite_physics, Ramp.init.drag_points, s.timer, Ramp.init.shared⟩
    (f32_rt.opt (fun v (s : Ramp) => { s with threshold := v }) (fun _ _ => trivial) rfl rfl) rfl ?_
  refine .segTo ⟨s.height_bottom, s.height_top, s.width_bottom, s.width_top, s.material, s.ramp_type, s.name, s.image, s.image_alignment, s.image_walls, s.left_wall_height, s.right_wall_height, s.left_wall_height_visible, s.right_wall_height_visible, s.hit_event, s.threshold, s.elasticity, Ramp.init.friction, Ramp.init.scatter, Ramp.init.is_collidable, Ramp.init.is_visible, Ramp.init.depth_bias, Ramp.init.wire_diameter, Ramp.init.wire_distance_x, Ramp.init.wire_distance_y, Ramp.init.is_reflection_enabled, Ramp.init.physics_material, Ramp.init.overwrite_physics, Ramp.init.drag_points, s.timer, Ramp.init.shared⟩
    (f32_rt.req trivial rfl) rfl ?_
  refine .segTo ⟨s.height_bottom, s.height_top, s.width_bottom, s.width_top, s.material, s.ramp_type, s.name, s.image, s.image_alignment, s.image_walls, s.left_wall_height, s.right_wall_height, s.left_wall_height_visible, s.right_wall_height_visible, s.hit_event, s.threshold, s.elasticity, s.friction, Ramp.init.scatter, Ramp.init.is_collidable, Ramp.init.is_visible, Ramp.init.depth_bias, Ramp.init.wire_diameter, Ramp.init.wire_distance_x, Ramp.init.wire_distance_y, Ramp.init.is_reflection_enabled, Ramp.init.physics_material, Ramp.init.overwrite_physics, Ramp.init.drag_points, s.timer, Ramp.init.shared⟩
    (f32_rt.req trivial rfl) rfl ?_
  refine .segTo ⟨s.height_bottom, s.height_top, s.width_bottom, s.width_top, s.material, s.ramp_type, s.name, s.image, s.image_alignment, s.image_walls, s.left_wall_height, s.right_wall_height, s.left_wall_height_visible, s.right_wall_height_visible, s.hit_event, s.threshold, s.elasticity, s.friction, s.scatter, Ramp.init.is_collidable, Ramp.init.is_visible, Ramp.init.depth_bias, Ramp.init.wire_diameter, Ramp.init.wire_distance_x, Ramp.init.wire_distance_y, Ramp.init.is_reflection_enabled, Ramp.init.physics_material, Ramp.init.overwrite_physics, Ramp.init.drag_points, s.timer, Ramp.init.shared⟩
    (f32_rt.req trivial rfl) rfl ?_
  refine .segTo ⟨s.height_bottom, s.height_top, s.width_bottom, s.width_top, s.material, s.ramp_type, s.name, s.image, s.image_alignment, s.image_walls, s.left_wall_height, s.right_wall_height, s.left_wall_height_visible, s.right_wall_height_visible, s.hit_event, s.threshold, s.elasticity, s.friction, s.scatter, s.is_collidable, Ramp.init.is_visible, Ramp.init.depth_bias, Ramp.init.wire_diameter, Ramp.init.wire_distance_x, Ramp.init.wire_distance_y, Ramp.init.is_reflection_enabled, Ramp.init.physics_material, Ramp.init.overwrite_physics, Ramp.init.drag_points, s.timer, Ramp.init.shared⟩
    (bool_rt.req trivial rfl) rfl ?_
  refine .segTo ⟨s.height_bottom, s.height_top, s.width_bottom, s.width_top, s.material, s.ramp_type, s.name, s.image, s.image_alignment, s.image_walls, s.left_wall_height, s.right_wall_height, s.left_wall_height_visible, s.right_wall_height_visible, s.hit_event, s.threshold, s.elasticity, s.friction, s.scatter, s.is_collidable, s.is_visible, Ramp.init.depth_bias, Ramp.init.wire_diameter, Ramp.init.wire_distance_x, Ramp.init.wire_distance_y, Ramp.init.is_reflection_enabled, Ramp.init.physics_material, Ramp.init.overwrite_physics, Ramp.init.drag_points, s.timer, Ramp.init.shared⟩
    (bool_rt.req trivial rfl) rfl ?_
  refine .segTo ⟨s.height_bottom, s.height_top, s.width_bottom, s.width_top, s.material, s.ramp_type, s.name, s.image, s.image_alignment, s.image_walls, s.left_wall_height, s.right_wall_height, s.left_wall_height_visible, s.right_wall_height_visible, s.hit_event, s.threshold, s.elasticity, s.friction, s.scatter, s.is_collidable, s.is_visible, s.depth_bias, Ramp.init.wire_diameter, Ramp.init.wire_distance_x, Ramp.init.wire_distance_y, Ramp.init.is_reflection_enabled, Ramp.init.physics_material, Ramp.init.overwrite_physics, Ramp.init.drag_points, s.timer, Ramp.init.shared⟩
    (f32_rt.req trivial rfl) rfl ?_
  refine .segTo ⟨s.height_bottom, s.height_top, s.width_bottom, s.width_top, s.material, s.ramp_type, s.name, s.image, s.image_alignment, s.image_walls, s.left_wall_height, s.right_wall_height, s.left_wall_height_visible, s.right_wall_height_visible, s.hit_event, s.threshold, s.elasticity, s.friction, s.scatter, s.is_collidable, s.is_visible, s.depth_bias, s.wire_diameter, Ramp.init.wire_distance_x, Ramp.init.wire_distance_y, Ramp.init.is_reflection_enabled, Ramp.init.physics_material, Ramp.init.overwrite_physics, Ramp.init.drag_points, s.timer, Ramp.init.shared⟩
    (f32_rt.req trivial rfl) rfl ?_
  refine .segTo ⟨s.height_bottom, s.height_top, s.width_bottom, s.width_top, s.material, s.ramp_type, s.name, s.image, s.image_alignment, s.image_walls, s.left_wall_height, s.right_wall_height, s.left_wall_height_visible, s.right_wall_height_visible, s.hit_event, s.threshold, s.elasticity, s.friction, s.scatter, s.is_collidable, s.is_visible, s.depth_bias, s.wire_diameter, s.wire_distance_x, Ramp.init.wire_distance_y, Ramp.init.is_reflection_enabled, Ramp.init.physics_material, Ramp.init.overwrite_physics, Ramp.init.drag_points, s.timer, Ramp.init.shared⟩
    (f32_rt.req trivial rfl) rfl ?_
  refine .segTo ⟨s.height_bottom, s.height_top, s.width_bottom, s.width_top, s.material, s.ramp_type, s.name, s.image, s.image_alignment, s.image_walls, s.left_wall_height, s.right_wall_height, s.left_wall_height_visible, s.right_wall_height_visible, s.hit_event, s.threshold, s.elasticity, s.friction, s.scatter, s.is_collidable, s.is_visible, s.depth_bias, s.wire_diameter, s.wire_distance_x, s.wire_distance_y, Ramp.init.is_reflection_enabled, Ramp.init.physics_material, Ramp.init.overwrite_physics, Ramp.init.drag_points, s.timer, Ramp.init.shared⟩
    (f32_rt.req trivial rfl) rfl ?_
  refine .segTo ⟨s.height_bottom, s.height_top, s.width_bottom, s.width_top, s.material, s.ramp_type, s.name, s.image, s.image_alignment, s.image_walls, s.left_wall_height, s.right_wall_height, s.left_wall_height_visible, s.right_wall_height_visible, s.hit_event, s.threshold, s.elasticity, s.friction, s.scatter, s.is_collidable, s.is_visible, s.depth_bias, s.wire_diameter, s.wire_distance_x, s.wire_distance_y, s.is_reflection_enabled, Ramp.init.physics_material, Ramp.init.overwrite_physics, Ramp.init.drag_points, s.timer, Ramp.init.shared⟩
    (bool_rt.opt (fun v (s : Ramp) => { s with is_reflection_enabled := v }) (fun _ _ => trivial) rfl rfl) rfl ?_
  refine .segTo ⟨s.height_bottom, s.height_top, s.width_bottom, s.width_top, s.material, s.ramp_type, s.name, s.image, s.image_alignment, s.image_walls, s.left_wall_height, s.right_wall_height, s.left_wall_height_visible, s.right_wall_height_visible, s.hit_event, s.threshold, s.elasticity, s.friction, s.scatter, s.is_collidable, s.is_visible, s.depth_bias, s.wire_diameter, s.wire_distance_x, s.wire_distance_y, s.is_reflection_enabled, s.physics_material, Ramp.init.overwrite_physics, Ramp.init.drag_points, s.timer, Ramp.init.shared⟩
    (string_rt.opt (fun v (s : Ramp) => { s with physics_material := v }) h.physics_material rfl rfl) rfl ?_
  refine .segTo ⟨s.height_bottom, s.height_top, s.width_bottom, s.width_top, s.material, s.ramp_type, s.name, s.image, s.image_alignment, s.image_walls, s.left_wall_height, s.right_wall_height, s.left_wall_height_visible, s.right_wall_height_visible, s.hit_event, s.threshold, s.elasticity, s.friction, s.scatter, s.is_collidable, s.is_visible, s.depth_bias, s.wire_diameter, s.wire_distance_x, s.wire_distance_y, s.is_reflection_enabled, s.physics_material, s.overwrite_physics, Ramp.init.drag_points, s.timer, Ramp.init.shared⟩
    (bool_rt.opt (fun v (s : Ramp) => { s with overwrite_physics := v }) (fun _ _ => trivial) rfl rfl) rfl ?_
  refine .segTo ⟨s.height_bottom, s.height_top, s.width_bottom, s.width_top, s.material, s.ramp_type, s.name, s.image, s.image_alignment, s.image_walls, s.left_wall_height, s.right_wall_height, s.left_wall_height_visible, s.right_wall_height_visible, s.hit_event, s.threshold, s.elasticity, s.friction, s.scatter, s.is_collidable, s.is_visible, s.depth_bias, s.wire_diameter, s.wire_distance_x, s.wire_distance_y, s.is_reflection_enabled, s.physics_material, s.overwrite_physics, Ramp.init.drag_points, s.timer, s.shared⟩
    (shared_reads (L := Ramp.sharedL) ⟨fun _ _ => rfl, fun _ _ _ => rfl, fun _ => rfl⟩ h.shared rfl rfl rfl rfl rfl rfl) rfl ?_
  refine .segTo ⟨s.height_bottom, s.height_top, s.width_bottom, s.width_top, s.material, s.ramp_type, s.name, s.image, s.image_alignment, s.image_walls, s.left_wall_height, s.right_wall_height, s.left_wall_height_visible, s.right_wall_height_visible, s.hit_event, s.threshold, s.elasticity, s.friction, s.scatter, s.is_collidable, s.is_visible, s.depth_bias, s.wire_diameter, s.wire_distance_x, s.wire_distance_y, s.is_reflection_enabled, s.physics_material, s.overwrite_physics, Ramp.init.drag_points, s.timer, s.shared⟩
    (OReads.marker rfl) rfl ?_
  refine .segTo ⟨s.height_bottom, s.height_top, s.width_bottom, s.width_top, s.material, s.ramp_type, s.name, s.image, s.image_alignment, s.image_walls, s.left_wall_height, s.right_wall_height, s.left_wall_height_visible, s.right_wall_height_visible, s.hit_event, s.threshold, s.elasticity, s.friction, s.scatter, s.is_collidable, s.is_visible, s.depth_bias, s.wire_diameter, s.wire_distance_x, s.wire_distance_y, s.is_reflection_enabled, s.physics_material, s.overwrite_physics, s.drag_points, s.timer, s.shared⟩
    (OReads.nestedList (hs' := DragPoint.arms) (u := DragPoint.init) _
    (fun l (s : Ramp) => { s with drag_points := s.drag_points ++ l }) rfl
    (fun v hv => DragPoint.reads (h.drag_points v hv)) (fun v l s => by simp)
    (fun s => by simp)) rfl ?_
  exact .done rfl

theorem Ramp.arms_inv : ArmsInv Ramp.WF Ramp.arms := by
  unfold Ramp.arms
  exact (.append (.append (.cons (.fld GP.any fun _ _ h _ => ⟨h.material, h.name, h.image, h.physics_material, h.shared, h.drag_points⟩) <|
    .cons (.fld GP.any fun _ _ h _ => ⟨h.material, h.name, h.image, h.physics_material, h.shared, h.drag_points⟩) <|
    .cons (.fld GP.any fun _ _ h _ => ⟨h.material, h.name, h.image, h.physics_material, h.shared, h.drag_points⟩) <|
    .cons (.fld GP.any fun _ _ h _ => ⟨h.material, h.name, h.image, h.physics_material, h.shared, h.drag_points⟩) <|
    .cons (.fld string_gp fun _ _ h hv => ⟨hv, h.name, h.image, h.physics_material, h.shared, h.drag_points⟩) <|
    .cons (.fld GP.any fun _ _ h _ => ⟨h.material, h.name, h.image, h.physics_material, h.shared, h.drag_points⟩) <|
    .cons (.fld wide_gp fun _ _ h hv => ⟨h.material, hv, h.image, h.physics_material, h.shared, h.drag_points⟩) <|
    .cons (.fld string_gp fun _ _ h hv => ⟨h.material, h.name, hv, h.physics_material, h.shared, h.drag_points⟩) <|
    .cons (.fld GP.any fun _ _ h _ => ⟨h.material, h.name, h.image, h.physics_material, h.shared, h.drag_points⟩) <|
    .cons (.fld GP.any fun _ _ h _ => ⟨h.material, h.name, h.image, h.physics_material, h.shared, h.drag_points⟩) <|
    .cons (.fld GP.any fun _ _ h _ => ⟨h.material, h.name, h.image, h.physics_material, h.shared, h.drag_points⟩) <|
    .cons (.fld GP.any fun _ _ h _ => ⟨h.material, h.name, h.image, h.physics_material, h.shared, h.drag_points⟩) <|
    .cons (.fld GP.any fun _ _ h _ => ⟨h.material, h.name, h.image, h.physics_material, h.shared, h.drag_points⟩) <|
    .cons (.fld GP.any fun _ _ h _ => ⟨h.material, h.name, h.image, h.physics_material, h.shared, h.drag_points⟩) <|
    .cons (.fld GP.any fun _ _ h _ => ⟨h.material, h.name, h.image, h.physics_material, h.shared, h.drag_points⟩) <|
    .cons (.fld GP.any fun _ _ h _ => ⟨h.material, h.name, h.image, h.physics_material, h.shared, h.drag_points⟩) <|
    .cons (.fld GP.any fun _ _ h _ => ⟨h.material, h.name, h.image, h.physics_material, h.shared, h.drag_points⟩) <|
    .cons (.fld GP.any fun _ _ h _ => ⟨h.material, h.name, h.image, h.physics_material, h.shared, h.drag_points⟩) <|
    .cons (.fld GP.any fun _ _ h _ => ⟨h.material, h.name, h.image, h.physics_material, h.shared, h.drag_points⟩) <|
    .cons (.fld GP.any fun _ _ h _ => ⟨h.material, h.name, h.image, h.physics_material, h.shared, h.drag_points⟩) <|
    .cons (.fld GP.any fun _ _ h _ => ⟨h.material, h.name, h.image, h.physics_material, h.shared, h.drag_points⟩) <|
    .cons (.fld GP.any fun _ _ h _ => ⟨h.material, h.name, h.image, h.physics_material, h.shared, h.drag_points⟩) <|
    .cons (.fld GP.any fun _ _ h _ => ⟨h.material, h.name, h.image, h.physics_material, h.shared, h.drag_points⟩) <|
    .cons (.fld GP.any fun _ _ h _ => ⟨h.material, h.name, h.image, h.physics_material, h.shared, h.drag_points⟩) <|
    .cons (.fld GP.any fun _ _ h _ => ⟨h.material, h.name, h.image, h.physics_material, h.shared, h.drag_points⟩) <|
    .cons (.fld GP.any fun _ _ h _ => ⟨h.material, h.name, h.image, h.physics_material, h.shared, h.drag_points⟩) <|
    .cons (.fld string_gp fun _ _ h hv => ⟨h.material, h.name, h.image, .some hv, h.shared, h.drag_points⟩) <|
    .cons (.fld GP.any fun _ _ h _ => ⟨h.material, h.name, h.image, h.physics_material, h.shared, h.drag_points⟩) <|
    .cons .pure <|
    .cons (.fld (getChild_gp (readWith_gp DragPoint.arms_inv DragPoint.init_wf)) fun _ _ h hv => ⟨h.material, h.name, h.image, h.physics_material, h.shared, (forall_append h.drag_points hv)⟩) .nil)
    (timerArms_inv fun _ _ h => ⟨h.material, h.name, h.image, h.physics_material, h.shared, h.drag_points⟩))
    (sharedArms_inv (fun _ h => h.shared) fun _ _ h ha => ⟨h.material, h.name, h.image, h.physics_material, ha, h.drag_points⟩))

theorem Ramp.init_wf : Ramp.WF Ramp.init where
  material := by decide
  name := by decide
  image := by decide
  physics_material := .none
  shared := ⟨.none, .none⟩
  drag_points := by intro p hp; cases hp

theorem Ramp.arms_tame : ArmsTame Ramp.arms := by
  unfold Ramp.arms
  exact (.append (.append (.cons (fun _ => f32_tame.fld) <|
    .cons (fun _ => f32_tame.fld) <|
    .cons (fun _ => f32_tame.fld) <|
    .cons (fun _ => f32_tame.fld) <|
    .cons (fun _ => string_tame.fld) <|
    .cons (fun _ => enum_tame.fld) <|
    .cons (fun _ => wide_tame.fld) <|
    .cons (fun _ => string_tame.fld) <|
    .cons (fun _ => enum_tame.fld) <|
    .cons (fun _ => bool_tame.fld) <|
    .cons (fun _ => f32_tame.fld) <|
    .cons (fun _ => f32_tame.fld) <|
    .cons (fun _ => f32_tame.fld) <|
    .cons (fun _ => f32_tame.fld) <|
    .cons (fun _ => bool_tame.fld) <|
    .cons (fun _ => f32_tame.fld) <|
    .cons (fun _ => f32_tame.fld) <|
    .cons (fun _ => f32_tame.fld) <|
    .cons (fun _ => f32_tame.fld) <|
    .cons (fun _ => bool_tame.fld) <|
    .cons (fun _ => bool_tame.fld) <|
    .cons (fun _ => f32_tame.fld) <|
    .cons (fun _ => f32_tame.fld) <|
    .cons (fun _ => f32_tame.fld) <|
    .cons (fun _ => f32_tame.fld) <|
    .cons (fun _ => bool_tame.fld) <|
    .cons (fun _ => string_tame.fld) <|
    .cons (fun _ => bool_tame.fld) <|
    .cons (fun _ => Tame.pure _) <|
    .cons (fun _ => (getChild_tame (readWith_tame DragPoint.arms_tame _)).fld) .nil) (timerArms_tame _)) (sharedArms_tame _))

end Vpin
