import Verif.Lemmas.Enums
import Verif.Lemmas.Tame
import Verif.Lemmas.ItemData
import Verif.Lemmas.Items.DragPoint
/-
`Wall`: reading back what was written, and what the reader guarantees for every input.
Generated by tools/gen_items.py.
-/
namespace Vpin


theorem Wall.reads {s : Wall} (h : s.WF) : OReads Wall.arms s.ops Wall.init s := by
  unfold Wall.ops
  refine .segTo ⟨Wall.init.name, s.hit_event, Wall.init.is_droppable, Wall.init.is_flipbook, Wall.init.is_bottom_solid, Wall.init.is_collidable, Wall.init.threshold, Wall.init.image, Wall.init.side_image, Wall.init.side_material, Wall.init.top_material, Wall.init.slingshot_material, Wall.init.height_bottom, Wall.init.height_top, Wall.init.display_texture, Wall.init.slingshot_force, Wall.init.slingshot_threshold, Wall.init.elasticity, Wall.init.elasticity_falloff, Wall.init.friction, Wall.init.scatter, Wall.init.is_top_bottom_visible, Wall.init.slingshot_animation, Wall.init.is_side_visible, Wall.init.disable_lighting_top_old, Wall.init.disable_lighting_top, Wall.init.disable_lighting_below, Wall.init.is_reflection_enabled, Wall.init.physics_material, Wall.init.overwrite_physics, Wall.init.timer, Wall.init.shared, Wall.init.drag_points⟩
    (bool_rt.req trivial rfl) rfl ?_
  refine .segTo ⟨Wall.init.name, s.hit_event, s.is_droppable, Wall.init.is_flipbook, Wall.init.is_bottom_solid, Wall.init.is_collidable, Wall.init.threshold, Wall.init.image, Wall.init.side_image, Wall.init.side_material, Wall.init.top_material, Wall.init.slingshot_material, Wall.init.height_bottom, Wall.init.height_top, Wall.init.display_texture, Wall.init.slingshot_force, Wall.init.slingshot_threshold, Wall.init.elasticity, Wall.init.elasticity_falloff, Wall.init.friction, Wall.init.scatter, Wall.init.is_top_bottom_visible, Wall.init.slingshot_animation, Wall.init.is_side_visible, Wall.init.disable_lighting_top_old, Wall.init.disable_lighting_top, Wall.init.disable_lighting_below, Wall.init.is_reflection_enabled, Wall.init.physics_material, Wall.init.overwrite_physics, Wall.init.timer, Wall.init.shared, Wall.init.drag_points⟩
    (bool_rt.req trivial rfl) rfl ?_
  refine .segTo ⟨Wall.init.name, s.hit_event, s.is_droppable, s.is_flipbook, Wall.init.is_bottom_solid, Wall.init.is_collidable, Wall.init.threshold, Wall.init.image, Wall.init.side_image, Wall.init.side_material, Wall.init.top_material, Wall.init.slingshot_material, Wall.init.height_bottom, Wall.init.height_top, Wall.init.display_texture, Wall.init.slingshot_force, Wall.init.slingshot_threshold, Wall.init.elasticity, Wall.init.elasticity_falloff, Wall.init.friction, Wall.init.scatter, Wall.init.is_top_bottom_visible, Wall.init.slingshot_animation, Wall.init.is_side_visible, Wall.init.disable_lighting_top_old, Wall.init.disable_lighting_top, Wall.init.disable_lighting_below, Wall.init.is_reflection_enabled, Wall.init.physics_material, Wall.init.overwrite_physics, Wall.init.timer, Wall.init.shared, Wall.init.drag_points⟩
    (bool_rt.req trivial rfl) rfl ?_
  refine .segTo ⟨Wall.init.name, s.hit_event, s.is_droppable, s.is_flipbook, s.is_bottom_solid, Wall.init.is_collidable, Wall.init.threshold, Wall.init.image, Wall.init.side_image, Wall.init.side_material, Wall.init.top_material, Wall.init.slingshot_material, Wall.init.height_bottom, Wall.init.height_top, Wall.init.display_texture, Wall.init.slingshot_force, Wall.init.slingshot_threshold, Wall.init.elasticity, Wall.init.elasticity_falloff, Wall.init.friction, Wall.init.scatter, Wall.init.is_top_bottom_visible, Wall.init.slingshot_animation, Wall.init.is_side_visible, Wall.init.disable_lighting_top_old, Wall.init.disable_lighting_top, Wall.init.disable_lighting_below, Wall.init.is_reflection_enabled, Wall.init.physics_material, Wall.init.overwrite_physics, Wall.init.timer, Wall.init.shared, Wall.init.drag_points⟩
    (bool_rt.req trivial rfl) rfl ?_
  refine .segTo ⟨Wall.init.name, s.hit_event, s.is_droppable, s.is_flipbook, s.is_bottom_solid, s.is_collidable, Wall.init.threshold, Wall.init.image, Wall.init.side_image, Wall.init.side_material, Wall.init.top_material, Wall.init.slingshot_material, Wall.init.height_bottom, Wall.init.height_top, Wall.init.display_texture, Wall.init.slingshot_force, Wall.init.slingshot_threshold, Wall.init.elasticity, Wall.init.elasticity_falloff, Wall.init.friction, Wall.init.scatter, Wall.init.is_top_bottom_visible, Wall.init.slingshot_animation, Wall.init.is_side_visible, Wall.init.disable_lighting_top_old, Wall.init.disable_lighting_top, Wall.init.disable_lighting_below, Wall.init.is_reflection_enabled, Wall.init.physics_material, Wall.init.overwrite_physics, Wall.init.timer, Wall.init.shared, Wall.init.drag_points⟩
    (bool_rt.req trivial rfl) rfl ?_
  refine .segTo ⟨Wall.init.name, s.hit_event, s.is_droppable, s.is_flipbook, s.is_bottom_solid, s.is_collidable, Wall.init.threshold, Wall.init.image, Wall.init.side_image, Wall.init.side_material, Wall.init.top_material, Wall.init.slingshot_material, Wall.init.height_bottom, Wall.init.height_top, Wall.init.display_texture, Wall.init.slingshot_force, Wall.init.slingshot_threshold, Wall.init.elasticity, Wall.init.elasticity_falloff, Wall.init.friction, Wall.init.scatter, Wall.init.is_top_bottom_visible, Wall.init.slingshot_animation, Wall.init.is_side_visible, Wall.init.disable_lighting_top_old, Wall.init.disable_lighting_top, Wall.init.disable_lighting_below, Wall.init.is_reflection_enabled, Wall.init.physics_material, Wall.init.overwrite_physics, s.timer, Wall.init.shared, Wall.init.drag_points⟩
    (timer_reads (L := Wall.timerL) ⟨fun _ _ => rfl, fun _ _ _ => rfl, fun _ => rfl⟩ rfl rfl) rfl ?_
  refine .segTo ⟨Wall.init.name, s.hit_event, s.is_droppable, s.is_flipbook, s.is_bottom_solid, s.is_collidable, s.threshold, Wall.init.image, Wall.init.side_image, Wall.init.side_material, Wall.init.top_material, Wall.init.slingshot_material, Wall.init.height_bottom, Wall.init.height_top, Wall.init.display_texture, Wall.init.slingshot_force, Wall.init.slingshot_threshold, Wall.init.elasticity, Wall.init.elasticity_falloff, Wall.init.friction, Wall.init.scatter, Wall.init.is_top_bottom_visible, Wall.init.slingshot_animation, Wall.init.is_side_visible, Wall.init.disable_lighting_top_old, Wall.init.disable_lighting_top, Wall.init.disable_lighting_below, Wall.init.is_reflection_enabled, Wall.init.physics_material, Wall.init.overwrite_physics, s.timer, Wall.init.shared, Wall.init.drag_points⟩
    (f32_rt.req trivial rfl) rfl ?_
  refine .segTo ⟨Wall.init.name, s.hit_event, s.is_droppable, s.is_flipbook, s.is_bottom_solid, s.is_collidable, s.threshold, s.image, Wall.init.side_image, Wall.init.side_material, Wall.init.top_material, Wall.init.slingshot_material, Wall.init.height_bottom, Wall.init.height_top, Wall.init.display_texture, Wall.init.slingshot_force, Wall.init.slingshot_threshold, Wall.init.elasticity, Wall.init.elasticity_falloff, Wall.init.friction, Wall.init.scatter, Wall.init.is_top_bottom_visible, Wall.init.slingshot_animation, Wall.init.is_side_visible, Wall.init.disable_lighting_top_old, Wall.init.disable_lighting_top, Wall.init.disable_lighting_below, Wall.init.is_reflection_enabled, Wall.init.physics_material, Wall.init.overwrite_physics, s.timer, Wall.init.shared, Wall.init.drag_points⟩
    (string_rt.req h.image rfl) rfl ?_
  refine .segTo ⟨Wall.init.name, s.hit_event, s.is_droppable, s.is_flipbook, s.is_bottom_solid, s.is_collidable, s.threshold, s.image, s.side_image, Wall.init.side_material, Wall.init.top_material, Wall.init.slingshot_material, Wall.init.height_bottom, Wall.init.height_top, Wall.init.display_texture, Wall.init.slingshot_force, Wall.init.slingshot_threshold, Wall.init.elasticity, Wall.init.elasticity_falloff, Wall.init.friction, Wall.init.scatter, Wall.init.is_top_bottom_visible, Wall.init.slingshot_animation, Wall.init.is_side_visible, Wall.init.disable_lighting_top_old, Wall.init.disable_lighting_top, Wall.init.disable_lighting_below, Wall.init.is_reflection_enabled, Wall.init.physics_material, Wall.init.overwrite_physics, s.timer, Wall.init.shared, Wall.init.drag_points⟩
    (string_rt.req h.side_image rfl) rfl ?_
  refine .segTo ⟨Wall.init.name, s.hit_event, s.is_droppable, s.is_flipbook, s.is_bottom_solid, s.is_collidable, s.threshold, s.image, s.side_image, s.side_material, Wall.init.top_material, Wall.init.slingshot_material, Wall.init.height_bottom, Wall.init.height_top, Wall.init.display_texture, Wall.init.slingshot_force, Wall.init.slingshot_threshold, Wall.init.elasticity, Wall.init.elasticity_falloff, Wall.init.friction, Wall.init.scatter, Wall.init.is_top_bottom_visible, Wall.init.slingshot_animation, Wall.init.is_side_visible, Wall.init.disable_lighting_top_old, Wall.init.disable_lighting_top, Wall.init.disable_lighting_below, Wall.init.is_reflection_enabled, Wall.init.physics_material, Wall.init.overwrite_physics, s.timer, Wall.init.shared, Wall.init.drag_points⟩
    (string_rt.req h.side_material rfl) rfl ?_
  refine .segTo ⟨Wall.init.name, s.hit_event, s.is_droppable, s.is_flipbook, s.is_bottom_solid, s.is_collidable, s.threshold, s.image, s.side_image, s.side_material, s.top_material, Wall.init.slingshot_material, Wall.init.height_bottom, Wall.init.height_top, Wall.init.display_texture, Wall.init.slingshot_force, Wall.init.slingshot_threshold, Wall.init.elasticity, Wall.init.elasticity_falloff, Wall.init.friction, Wall.init.scatter, Wall.init.is_top_bottom_visible, Wall.init.slingshot_animation, Wall.init.is_side_visible, Wall.init.disable_lighting_top_old, Wall.init.disable_lighting_top, Wall.init.disable_lighting_below, Wall.init.is_reflection_enabled, Wall.init.physics_material, Wall.init.overwrite_physics, s.timer, Wall.init.shared, Wall.init.drag_points⟩
    (string_rt.req h.top_material rfl) rfl ?_
  refine .segTo ⟨Wall.init.name, s.hit_event, s.is_droppable, s.is_flipbook, s.is_bottom_solid, s.is_collidable, s.threshold, s.image, s.side_image, s.side_material, s.top_material, s.slingshot_material, Wall.init.height_bottom, Wall.init.height_top, Wall.init.display_texture, Wall.init.slingshot_force, Wall.init.slingshot_threshold, Wall.init.elasticity, Wall.init.elasticity_falloff, Wall.init.friction, Wall.init.scatter, Wall.init.is_top_bottom_visible, Wall.init.slingshot_animation, Wall.init.is_side_visible, Wall.init.disable_lighting_top_old, Wall.init.disable_lighting_top, Wall.init.disable_lighting_below, Wall.init.is_reflection_enabled, Wall.init.physics_material, Wall.init.overwrite_physics, s.timer, Wall.init.shared, Wall.init.drag_points⟩
    (string_rt.req h.slingshot_material rfl) rfl ?_
  refine .segTo ⟨Wall.init.name, s.hit_event, s.is_droppable, s.is_flipbook, s.is_bottom_solid, s.is_collidable, s.threshold, s.image, s.side_image, s.side_material, s.top_material, s.slingshot_material, s.height_bottom, Wall.init.height_top, Wall.init.display_texture, Wall.init.slingshot_force, Wall.init.slingshot_threshold, Wall.init.elasticity, Wall.init.elasticity_falloff, Wall.init.friction, Wall.init.scatter, Wall.init.is_top_bottom_visible, Wall.init.slingshot_animation, Wall.init.is_side_visible, Wall.init.disable_lighting_top_old, Wall.init.disable_lighting_top, Wall.init.disable_lighting_below, Wall.init.is_reflection_enabled, Wall.init.physics_material, Wall.init.overwrite_physics, s.timer, Wall.init.shared, Wall.init.drag_points⟩
    (f32_rt.req trivial rfl) rfl ?_
  refine .segTo ⟨Wall.init.name, s.hit_event, s.is_droppable, s.is_flipbook, s.is_bottom_solid, s.is_collidable, s.threshold, s.image, s.side_image, s.side_material, s.top_material, s.slingshot_material, s.height_bottom, s.height_top, Wall.init.display_texture, Wall.init.slingshot_force, Wall.init.slingshot_threshold, Wall.init.elasticity, Wall.init.elasticity_falloff, Wall.init.friction, Wall.init.scatter, Wall.init.is_top_bottom_visible, Wall.init.slingshot_animation, Wall.init.is_side_visible, Wall.init.disable_lighting_top_old, Wall.init.disable_lighting_top, Wall.init.disable_lighting_below, Wall.init.is_reflection_enabled, Wall.init.physics_material, Wall.init.overwrite_physics, s.timer, Wall.init.shared, Wall.init.drag_points⟩
    (f32_rt.req trivial rfl) rfl ?_
  refine .segTo ⟨s.name, s.hit_event, s.is_droppable, s.is_flipbook, s.is_bottom_solid, s.is_collidable, s.threshold, s.image, s.side_image, s.side_material, s.top_material, s.slingshot_material, s.height_bottom, s.height_top, Wall.init.display_texture, Wall.init.slingshot_force, Wall.init.slingshot_threshold, Wall.init.elasticity, Wall.init.elasticity_falloff, Wall.init.friction, Wall.init.scatter, Wall.init.is_top_bottom_visible, Wall.init.slingshot_animation, Wall.init.is_side_visible, Wall.init.disable_lighting_top_old, Wall.init.disable_lighting_top, Wall.init.disable_lighting_below, Wall.init.is_reflection_enabled, Wall.init.physics_material, Wall.init.overwrite_physics, s.timer, Wall.init.shared, Wall.init.drag_points⟩
    (wide_rt.req h.name rfl) rfl ?_
  refine .segTo ⟨s.name, s.hit_event, s.is_droppable, s.is_flipbook, s.is_bottom_solid, s.is_collidable, s.threshold, s.image, s.side_image, s.side_material, s.top_material, s.slingshot_material, s.height_bottom, s.height_top, s.display_texture, Wall.init.slingshot_force, Wall.init.slingshot_threshold, Wall.init.elasticity, Wall.init.elasticity_falloff, Wall.init.friction, Wall.init.scatter, Wall.init.is_top_bottom_visible, Wall.init.slingshot_animation, Wall.init.is_side_visible, Wall.init.disable_lighting_top_old, Wall.init.disable_lighting_top, Wall.init.disable_lighting_below, Wall.init.is_reflection_enabled, Wall.init.physics_material, Wall.init.overwrite_physics, s.timer, Wall.init.shared, Wall.init.drag_points⟩
    (bool_rt.req trivial rfl) rfl ?_
  refine .segTo ⟨s.name, s.hit_event, s.is_droppable, s.is_flipbook, s.is_bottom_solid, s.is_collidable, s.threshold, s.image, s.side_image, s.side_material, s.top_material, s.slingshot_material, s.height_bottom, s.height_top, s.display_texture, s.slingshot_force, Wall.init.slingshot_threshold, Wall.init.elasticity, Wall.init.elasticity_falloff, Wall.init.friction, Wall.init.scatter, Wall.init.is_top_bottom_visible, Wall.init.slingshot_animation, Wall.init.is_side_visible, Wall.init.disable_lighting_top_old, Wall.init.disable_lighting_top, Wall.init.disable_lighting_below, Wall.init.is_reflection_enabled, Wall.init.physics_material, Wall.init.overwrite_physics, s.timer, Wall.init.shared, Wall.init.drag_points⟩
    (f32_rt.req trivial rfl) rfl ?_
  refine .segTo ⟨s.name, s.hit_event, s.is_droppable, s.is_flipbook, s.is_bottom_solid, s.is_collidable, s.threshold, s.image, s.side_image, s.side_material, s.top_material, s.slingshot_material, s.height_bottom, s.height_top, s.display_texture, s.slingshot_force, s.slingshot_threshold, Wall.init.elasticity, Wall.init.elasticity_falloff, Wall.init.friction, Wall.init.scatter, Wall.init.is_top_bottom_visible, Wall.init.slingshot_animation, Wall.init.is_side_visible, Wall.init.disable_lighting_top_old, Wall.init.disable_lighting_top, Wall.init.disable_lighting_below, Wall.init.is_reflection_enabled, Wall.init.physics_material, Wall.init.overwrite_physics, s.timer, Wall.init.shared, Wall.init.drag_points⟩
    (f32_rt.req trivial rfl) rfl ?_
  refine .segTo ⟨s.name, s.hit_event, s.is_droppable, s.is_flipbook, s.is_bottom_solid, s.is_collidable, s.threshold, s.image, s.side_image, s.side_material, s.top_material, s.slingshot_material, s.height_bottom, s.height_top, s.display_texture, s.slingshot_force, s.slingshot_threshold, s.elasticity, Wall.init.elasticity_falloff, Wall.init.friction, Wall.init.scatter, Wall.init.is_top_bottom_visible, Wall.init.slingshot_animation, Wall.init.is_side_visible, Wall.init.disable_lighting_top_old, Wall.init.disable_lighting_top, Wall.init.disable_lighting_below, Wall.init.is_reflection_enabled, Wall.init.physics_material, Wall.init.overwrite_physics, s.timer, Wall.init.shared, Wall.init.drag_points⟩
    (f32_rt.req trivial rfl) rfl ?_
  refine .segTo ⟨s.name, s.hit_event, s.is_droppable, s.is_flipbook, s.is_bottom_solid, s.is_collidable, s.threshold, s.image, s.side_image, s.side_material, s.top_material, s.slingshot_material, s.height_bottom, s.height_top, s.display_texture, s.slingshot_force, s.slingshot_threshold, s.elasticity, s.elasticity_falloff, Wall.init.friction, Wall.init.scatter, Wall.init.is_top_bottom_visible, Wall.init.slingshot_animation, Wall.init.is_side_visible, Wall.init.disable_lighting_top_old, Wall.init.disable_lighting_top, Wall.init.disable_lighting_below, Wall.init.is_reflection_enabled, Wall.init.physics_material, Wall.init.overwrite_physics, s.timer, Wall.init.shared, Wall.init.drag_points⟩
    (f32_rt.opt (fun v (s : Wall) => { s with elasticity_falloff := v }) (fun _ _ => trivial) rfl rfl) rfl ?_
  refine .segTo ⟨s.name, s.hit_event, s.is_droppable, s.is_flipbook, s.is_bottom_solid, s.is_collidable, s.threshold, s.image, s.side_image, s.side_material, s.top_material, s.slingshot_material, s.height_bottom, s.height_top, s.display_texture, s.slingshot_force, s.slingshot_threshold, s.elasticity, s.elasticity_falloff, s.friction, Wall.init.scatter, Wall.init.is_top_bottom_visible, Wall.init.slingshot_animation, Wall.init.is_side_visible, Wall.init.disable_lighting_top_old, Wall.init.disable_lighting_top, Wall.init.disable_lighting_below, Wall.init.is_reflection_enabled, Wall.init.physics_material, Wall.init.overwrite_physics, s.timer, Wall.init.shared, Wall.init.drag_points⟩
    (f32_rt.req trivial rfl) rfl ?_
  refine .segTo ⟨s.name, s.hit_event, s.is_droppable, s.is_flipbook, s.is_bottom_solid, s.is_collidable, s.threshold, s.image, s.side_image, s.side_material, s.top_material, s.slingshot_material, s.height_bottom, s.height_top, s.display_texture, s.slingshot_force, s.slingshot_threshold, s.elasticity, s.elasticity_falloff, s.friction, s.scatter, Wall.init.is_top_bottom_visible, Wall.init.slingshot_animation, Wall.init.is_side_visible, Wall.init.disable_lighting_top_old, Wall.init.disable_lighting_top, Wall.init.disable_lighting_below, Wall.init.is_reflection_enabled, Wall.init.physics_material, Wall.init.overwrite_physics, s.timer, Wall.init.shared, Wall.init.drag_points⟩
    (f32_rt.req trivial rfl) rfl ?_
  refine .segTo ⟨s.name, s.hit_event, s.is_droppable, s.is_flipbook, s.is_bottom_solid, s.is_collidable, s.threshold, s.image, s.side_image, s.side_material, s.top_material, s.slingshot_material, s.height_bottom, s.height_top, s.display_texture, s.slingshot_force, s.slingshot_threshold, s.elasticity, s.elasticity_falloff, s.friction, s.scatter, s.is_top_bottom_visible, Wall.init.slingshot_animation, Wall.init.is_side_visible, Wall.init.disable_lighting_top_old, Wall.init.disable_lighting_top, Wall.init.disable_lighting_below, Wall.init.is_reflection_enabled, Wall.init.physics_material, Wall.init.overwrite_physics, s.timer, Wall.init.shared, Wall.init.drag_points⟩
    (bool_rt.req trivial rfl) rfl ?_
  refine .segTo ⟨s.name, s.hit_event, s.is_droppable, s.is_flipbook, s.is_bottom_solid, s.is_collidable, s.threshold, s.image, s.side_image, s.side_material, s.top_material, s.slingshot_material, s.height_bottom, s.height_top, s.display_texture, s.slingshot_force, s.slingshot_threshold, s.elasticity, s.elasticity_falloff, s.friction, s.scatter, s.is_top_bottom_visible, s.slingshot_animation, Wall.init.is_side_visible, Wall.init.disable_lighting_top_old, Wall.init.disable_lighting_top, Wall.init.disable_lighting_below, Wall.init.is_reflection_enabled, Wall.init.physics_material, Wall.init.overwrite_physics, s.timer, Wall.init.shared, Wall.init.drag_points⟩
    (bool_rt.req trivial rfl) rfl ?_
  refine .segTo ⟨s.name, s.hit_event, s.is_droppable, s.is_flipbook, s.is_bottom_solid, s.is_collidable, s.threshold, s.image, s.side_image, s.side_material, s.top_material, s.slingshot_material, s.height_bottom, s.height_top, s.display_texture, s.slingshot_force, s.slingshot_threshold, s.elasticity, s.elasticity_falloff, s.friction, s.scatter, s.is_top_bottom_visible, s.slingshot_animation, s.is_side_visible, Wall.init.disable_lighting_top_old, Wall.init.disable_lighting_top, Wall.init.disable_lighting_below, Wall.init.is_reflection_enabled, Wall.init.physics_material, Wall.init.overwrite_physics, s.timer, Wall.init.shared, Wall.init.drag_points⟩
    (bool_rt.req trivial rfl) rfl ?_
  refine .segTo ⟨s.name, s.hit_event, s.is_droppable, s.is_flipbook, s.is_bottom_solid, s.is_collidable, s.threshold, s.image, s.side_image, s.side_material, s.top_material, s.slingshot_material, s.height_bottom, s.height_top, s.display_texture, s.slingshot_force, s.slingshot_threshold, s.elasticity, s.elasticity_falloff, s.friction, s.scatter, s.is_top_bottom_visible, s.slingshot_animation, s.is_side_visible, s.disable_lighting_top_old, Wall.init.disable_lighting_top, Wall.init.disable_lighting_below, Wall.init.is_reflection_enabled, Wall.init.physics_material, Wall.init.overwrite_physics, s.timer, Wall.init.shared, Wall.init.drag_points⟩
    (quant8_rt.opt (fun v (s : Wall) => { s with disable_lighting_top_old := v }) h.disable_lighting_top_old rfl rfl) rfl ?_
  refine .segTo ⟨s.name, s.hit_event, s.is_droppable, s.is_flipbook, s.is_bottom_solid, s.is_collidable, s.threshold, s.image, s.side_image, s.side_material, s.top_material, s.slingshot_material, s.height_bottom, s.height_top, s.display_texture, s.slingshot_force, s.slingshot_threshold, s.elasticity, s.elasticity_falloff, s.friction, s.scatter, s.is_top_bottom_visible, s.slingshot_animation, s.is_side_visible, s.disable_lighting_top_old, s.disable_lighting_top, Wall.init.disable_lighting_below, Wall.init.is_reflection_enabled, Wall.init.physics_material, Wall.init.overwrite_physics, s.timer, Wall.init.shared, Wall.init.drag_points⟩
    (f32_rt.opt (fun v (s : Wall) => { s with disable_lighting_top := v }) (fun _ _ => trivial) rfl rfl) rfl ?_
  refine .segTo ⟨s.name, s.hit_event, s.is_droppable, s.is_flipbook, s.is_bottom_solid, s.is_collidable, s.threshold, s.image, s.side_image, s.side_material, s.top_material, s.slingshot_material, s.height_bottom, s.height_top, s.display_texture, s.slingshot_force, s.slingshot_threshold, s.elasticity, s.elasticity_falloff, s.friction, s.scatter, s.is_top_bottom_visible, s.slingshot_animation, s.is_side_visible, s.disable_lighting_top_old, s.disable_lighting_top, s.disable_lighting_below, Wall.init.is_reflection_enabled, Wall.init.physics_material, Wall.init.overwrite_physics, s.timer, Wall.init.shared, Wall.init.drag_points⟩
    (f32_rt.opt (fun v (s : Wall) => { s with disable_lighting_below := v }) (fun _ _ => trivial) rfl rfl) rfl ?_
  refine .segTo ⟨s.name, s.hit_event, s.is_droppable, s.is_flipbook, s.is_bottom_solid, s.is_collidable, s.threshold, s.image, s.side_image, s.side_material, s.top_material, s.slingshot_material, s.height_bottom, s.height_top, s.display_texture, s.slingshot_force, s.slingshot_threshold, s.elasticity, s.elasticity_falloff, s.friction, s.scatter, s.is_top_bottom_visible, s.slingshot_animation, s.is_side_visible, s.disable_lighting_top_old, s.disable_lighting_top, s.disable_lighting_below, s.is_reflection_enabled, Wall.init.physics_material, Wall.init.overwrite_physics, s.timer, Wall.init.shared, Wall.init.drag_points⟩
    (bool_rt.opt (fun v (s : Wall) => { s with is_reflection_enabled := v }) (fun _ _ => trivial) rfl rfl) rfl ?_
  refine .segTo ⟨s.name, s.hit_event, s.is_droppable, s.is_flipbook, s.is_bottom_solid, s.is_collidable, s.threshold, s.image, s.side_image, s.side_material, s.top_material, s.slingshot_material, s.height_bottom, s.height_top, s.display_texture, s.slingshot_force, s.slingshot_threshold, s.elasticity, s.elasticity_falloff, s.friction, s.scatter, s.is_top_bottom_visible, s.slingshot_animation, s.is_side_visible, s.disable_lighting_top_old, s.disable_lighting_top, s.disable_lighting_below, s.is_reflection_enabled, s.physics_material, Wall.init.overwrite_physics, s.timer, Wall.init.shared, Wall.init.drag_points⟩
    (string_rt.opt (fun v (s : Wall) => { s with physics_material := v }) h.physics_material rfl rfl) rfl ?_
  refine .segTo ⟨s.name, s.hit_event, s.is_droppable, s.is_flipbook, s.is_bottom_solid, s.is_collidable, s.threshold, s.image, s.side_image, s.side_material, s.top_material, s.slingshot_material, s.height_bottom, s.height_top, s.display_texture, s.slingshot_force, s.slingshot_threshold, s.elasticity, s.elasticity_falloff, s.friction, s.scatter, s.is_top_bottom_visible, s.slingshot_animation, s.is_side_visible, s.disable_lighting_top_old, s.disable_lighting_top, s.disable_lighting_below, s.is_reflection_enabled, s.physics_material, s.overwrite_physics, s.timer, Wall.init.shared, Wall.init.drag_points⟩
    (bool_rt.opt (fun v (s : Wall) => { s with overwrite_physics := v }) (fun _ _ => trivial) rfl rfl) rfl ?_
  refine .segTo ⟨s.name, s.hit_event, s.is_droppable, s.is_flipbook, s.is_bottom_solid, s.is_collidable, s.threshold, s.image, s.side_image, s.side_material, s.top_material, s.slingshot_material, s.height_bottom, s.height_top, s.display_texture, s.slingshot_force, s.slingshot_threshold, s.elasticity, s.elasticity_falloff, s.friction, s.scatter, s.is_top_bottom_visible, s.slingshot_animation, s.is_side_visible, s.disable_lighting_top_old, s.disable_lighting_top, s.disable_lighting_below, s.is_reflection_enabled, s.physics_material, s.overwrite_physics, s.timer, s.shared, Wall.init.drag_points⟩
    (shared_reads (L := Wall.sharedL) ⟨fun _ _ => rfl, fun _ _ _ => rfl, fun _ => rfl⟩ h.shared rfl rfl rfl rfl rfl rfl) rfl ?_
  refine .segTo ⟨s.name, s.hit_event, s.is_droppable, s.is_flipbook, s.is_bottom_solid, s.is_collidable, s.threshold, s.image, s.side_image, s.side_material, s.top_material, s.slingshot_material, s.height_bottom, s.height_top, s.display_texture, s.slingshot_force, s.slingshot_threshold, s.elasticity, s.elasticity_falloff, s.friction, s.scatter, s.is_top_bottom_visible, s.slingshot_animation, s.is_side_visible, s.disable_lighting_top_old, s.disable_lighting_top, s.disable_lighting_below, s.is_reflection_enabled, s.physics_material, s.overwrite_physics, s.timer, s.shared, Wall.init.drag_points⟩
    (OReads.marker rfl) rfl ?_
  refine .segTo ⟨s.name, s.hit_event, s.is_droppable, s.is_flipbook, s.is_bottom_solid, s.is_collidable, s.threshold, s.image, s.side_image, s.side_material, s.top_material, s.slingshot_material, s.height_bottom, s.height_top, s.display_texture, s.slingshot_force, s.slingshot_threshold, s.elasticity, s.elasticity_falloff, s.friction, s.scatter, s.is_top_bottom_visible, s.slingshot_animation, s.is_side_visible, s.disable_lighting_top_old, s.disable_lighting_top, s.disable_lighting_below, s.is_reflection_enabled, s.physics_material, s.overwrite_physics, s.timer, s.shared, s.drag_points⟩
    (OReads.nestedList (hs' := DragPoint.arms) (u := DragPoint.init) _
    (fun l (s : Wall) => { s with drag_points := s.drag_points ++ l }) rfl
    (fun v hv => DragPoint.reads (h.drag_points v hv)) (fun v l s => by simp)
    (fun s => by simp)) rfl ?_
  exact .done rfl

theorem Wall.arms_inv : ArmsInv Wall.WF Wall.arms := by
  unfold Wall.arms
  exact (.append (.append (.cons (.fld GP.any fun _ _ h _ => ⟨h.image, h.side_image, h.side_material, h.top_material, h.slingshot_material, h.name, h.disable_lighting_top_old, h.physics_material, h.shared, h.drag_points⟩) <|
    .cons (.fld GP.any fun _ _ h _ => ⟨h.image, h.side_image, h.side_material, h.top_material, h.slingshot_material, h.name, h.disable_lighting_top_old, h.physics_material, h.shared, h.drag_points⟩) <|
    .cons (.fld GP.any fun _ _ h _ => ⟨h.image, h.side_image, h.side_material, h.top_material, h.slingshot_material, h.name, h.disable_lighting_top_old, h.physics_material, h.shared, h.drag_points⟩) <|
    .cons (.fld GP.any fun _ _ h _ => ⟨h.image, h.side_image, h.side_material, h.top_material, h.slingshot_material, h.name, h.disable_lighting_top_old, h.physics_material, h.shared, h.drag_points⟩) <|
    .cons (.fld GP.any fun _ _ h _ => ⟨h.image, h.side_image, h.side_material, h.top_material, h.slingshot_material, h.name, h.disable_lighting_top_old, h.physics_material, h.shared, h.drag_points⟩) <|
    .cons (.fld GP.any fun _ _ h _ => ⟨h.image, h.side_image, h.side_material, h.top_material, h.slingshot_material, h.name, h.disable_lighting_top_old, h.physics_material, h.shared, h.drag_points⟩) <|
    .cons (.fld string_gp fun _ _ h hv => ⟨hv, h.side_image, h.side_material, h.top_material, h.slingshot_material, h.name, h.disable_lighting_top_old, h.physics_material, h.shared, h.drag_points⟩) <|
    .cons (.fld string_gp fun _ _ h hv => ⟨h.image, hv, h.side_material, h.top_material, h.slingshot_material, h.name, h.disable_lighting_top_old, h.physics_material, h.shared, h.drag_points⟩) <|
    .cons (.fld string_gp fun _ _ h hv => ⟨h.image, h.side_image, hv, h.top_material, h.slingshot_material, h.name, h.disable_lighting_top_old, h.physics_material, h.shared, h.drag_points⟩) <|
    .cons (.fld string_gp fun _ _ h hv => ⟨h.image, h.side_image, h.side_material, hv, h.slingshot_material, h.name, h.disable_lighting_top_old, h.physics_material, h.shared, h.drag_points⟩) <|
    .cons (.fld string_gp fun _ _ h hv => ⟨h.image, h.side_image, h.side_material, h.top_material, hv, h.name, h.disable_lighting_top_old, h.physics_material, h.shared, h.drag_points⟩) <|
    .cons (.fld GP.any fun _ _ h _ => ⟨h.image, h.side_image, h.side_material, h.top_material, h.slingshot_material, h.name, h.disable_lighting_top_old, h.physics_material, h.shared, h.drag_points⟩) <|
    .cons (.fld wide_gp fun _ _ h hv => ⟨h.image, h.side_image, h.side_material, h.top_material, h.slingshot_material, hv, h.disable_lighting_top_old, h.physics_material, h.shared, h.drag_points⟩) <|
    .cons (.fld GP.any fun _ _ h _ => ⟨h.image, h.side_image, h.side_material, h.top_material, h.slingshot_material, h.name, h.disable_lighting_top_old, h.physics_material, h.shared, h.drag_points⟩) <|
    .cons (.fld GP.any fun _ _ h _ => ⟨h.image, h.side_image, h.side_material, h.top_material, h.slingshot_material, h.name, h.disable_lighting_top_old, h.physics_material, h.shared, h.drag_points⟩) <|
    .cons (.fld GP.any fun _ _ h _ => ⟨h.image, h.side_image, h.side_material, h.top_material, h.slingshot_material, h.name, h.disable_lighting_top_old, h.physics_material, h.shared, h.drag_points⟩) <|
    .cons (.fld GP.any fun _ _ h _ => ⟨h.image, h.side_image, h.side_material, h.top_material, h.slingshot_material, h.name, h.disable_lighting_top_old, h.physics_material, h.shared, h.drag_points⟩) <|
    .cons (.fld GP.any fun _ _ h _ => ⟨h.image, h.side_image, h.side_material, h.top_material, h.slingshot_material, h.name, h.disable_lighting_top_old, h.physics_material, h.shared, h.drag_points⟩) <|
    .cons (.fld GP.any fun _ _ h _ => ⟨h.image, h.side_image, h.side_material, h.top_material, h.slingshot_material, h.name, h.disable_lighting_top_old, h.physics_material, h.shared, h.drag_points⟩) <|
    .cons (.fld GP.any fun _ _ h _ => ⟨h.image, h.side_image, h.side_material, h.top_material, h.slingshot_material, h.name, h.disable_lighting_top_old, h.physics_material, h.shared, h.drag_points⟩) <|
    .cons (.fld GP.any fun _ _ h _ => ⟨h.image, h.side_image, h.side_material, h.top_material, h.slingshot_material, h.name, h.disable_lighting_top_old, h.physics_material, h.shared, h.drag_points⟩) <|
    .cons (.fld GP.any fun _ _ h _ => ⟨h.image, h.side_image, h.side_material, h.top_material, h.slingshot_material, h.name, h.disable_lighting_top_old, h.physics_material, h.shared, h.drag_points⟩) <|
    .cons (.fld GP.any fun _ _ h _ => ⟨h.image, h.side_image, h.side_material, h.top_material, h.slingshot_material, h.name, h.disable_lighting_top_old, h.physics_material, h.shared, h.drag_points⟩) <|
    .cons (.fld GP.any fun _ _ h _ => ⟨h.image, h.side_image, h.side_material, h.top_material, h.slingshot_material, h.name, h.disable_lighting_top_old, h.physics_material, h.shared, h.drag_points⟩) <|
    .cons (.fld GP.any fun _ _ h _ => ⟨h.image, h.side_image, h.side_material, h.top_material, h.slingshot_material, h.name, h.disable_lighting_top_old, h.physics_material, h.shared, h.drag_points⟩) <|
    .cons (.fld GP.any fun _ _ h _ => ⟨h.image, h.side_image, h.side_material, h.top_material, h.slingshot_material, h.name, h.disable_lighting_top_old, h.physics_material, h.shared, h.drag_points⟩) <|
    .cons (.fld GP.any fun _ _ h _ => ⟨h.image, h.side_image, h.side_material, h.top_material, h.slingshot_material, h.name, h.disable_lighting_top_old, h.physics_material, h.shared, h.drag_points⟩) <|
    .cons (.fld GP.any fun _ _ h _ => ⟨h.image, h.side_image, h.side_material, h.top_material, h.slingshot_material, h.name, h.disable_lighting_top_old, h.physics_material, h.shared, h.drag_points⟩) <|
    .cons (.fld string_gp fun _ _ h hv => ⟨h.image, h.side_image, h.side_material, h.top_material, h.slingshot_material, h.name, h.disable_lighting_top_old, .some hv, h.shared, h.drag_points⟩) <|
    .cons (.fld GP.any fun _ _ h _ => ⟨h.image, h.side_image, h.side_material, h.top_material, h.slingshot_material, h.name, h.disable_lighting_top_old, h.physics_material, h.shared, h.drag_points⟩) <|
    .cons (.fld GP.any fun _ _ h _ => ⟨h.image, h.side_image, h.side_material, h.top_material, h.slingshot_material, h.name, h.disable_lighting_top_old, h.physics_material, h.shared, h.drag_points⟩) <|
    .cons (.fld GP.any fun _ _ h _ => ⟨h.image, h.side_image, h.side_material, h.top_material, h.slingshot_material, h.name, h.disable_lighting_top_old, h.physics_material, h.shared, h.drag_points⟩) <|
    .cons (.fld GP.any fun _ _ h _ => ⟨h.image, h.side_image, h.side_material, h.top_material, h.slingshot_material, h.name, h.disable_lighting_top_old, h.physics_material, h.shared, h.drag_points⟩) <|
    .cons (.fld GP.any fun _ _ h _ => ⟨h.image, h.side_image, h.side_material, h.top_material, h.slingshot_material, h.name, h.disable_lighting_top_old, h.physics_material, h.shared, h.drag_points⟩) <|
    .cons (.fld quant8_gp fun _ _ h hv => ⟨h.image, h.side_image, h.side_material, h.top_material, h.slingshot_material, h.name, .some hv, h.physics_material, h.shared, h.drag_points⟩) <|
    .cons (.fld GP.any fun _ _ h _ => ⟨h.image, h.side_image, h.side_material, h.top_material, h.slingshot_material, h.name, h.disable_lighting_top_old, h.physics_material, h.shared, h.drag_points⟩) <|
    .cons (.fld GP.any fun _ _ h _ => ⟨h.image, h.side_image, h.side_material, h.top_material, h.slingshot_material, h.name, h.disable_lighting_top_old, h.physics_material, h.shared, h.drag_points⟩) <|
    .cons (.fld string_gp fun _ _ h hv => ⟨h.image, h.side_image, h.side_material, h.top_material, h.slingshot_material, h.name, h.disable_lighting_top_old, .some hv, h.shared, h.drag_points⟩) <|
    .cons (.fld GP.any fun _ _ h _ => ⟨h.image, h.side_image, h.side_material, h.top_material, h.slingshot_material, h.name, h.disable_lighting_top_old, h.physics_material, h.shared, h.drag_points⟩) <|
    .cons (.fld string_gp fun _ _ h hv => ⟨hv, h.side_image, h.side_material, h.top_material, h.slingshot_material, h.name, h.disable_lighting_top_old, h.physics_material, h.shared, h.drag_points⟩) <|
    .cons (.fld string_gp fun _ _ h hv => ⟨h.image, hv, h.side_material, h.top_material, h.slingshot_material, h.name, h.disable_lighting_top_old, h.physics_material, h.shared, h.drag_points⟩) <|
    .cons (.fld string_gp fun _ _ h hv => ⟨h.image, h.side_image, hv, h.top_material, h.slingshot_material, h.name, h.disable_lighting_top_old, h.physics_material, h.shared, h.drag_points⟩) <|
    .cons (.fld string_gp fun _ _ h hv => ⟨h.image, h.side_image, h.side_material, hv, h.slingshot_material, h.name, h.disable_lighting_top_old, h.physics_material, h.shared, h.drag_points⟩) <|
    .cons (.fld string_gp fun _ _ h hv => ⟨h.image, h.side_image, h.side_material, h.top_material, hv, h.name, h.disable_lighting_top_old, h.physics_material, h.shared, h.drag_points⟩) <|
    .cons (.fld GP.any fun _ _ h _ => ⟨h.image, h.side_image, h.side_material, h.top_material, h.slingshot_material, h.name, h.disable_lighting_top_old, h.physics_material, h.shared, h.drag_points⟩) <|
    .cons (.fld GP.any fun _ _ h _ => ⟨h.image, h.side_image, h.side_material, h.top_material, h.slingshot_material, h.name, h.disable_lighting_top_old, h.physics_material, h.shared, h.drag_points⟩) <|
    .cons (.fld GP.any fun _ _ h _ => ⟨h.image, h.side_image, h.side_material, h.top_material, h.slingshot_material, h.name, h.disable_lighting_top_old, h.physics_material, h.shared, h.drag_points⟩) <|
    .cons (.fld GP.any fun _ _ h _ => ⟨h.image, h.side_image, h.side_material, h.top_material, h.slingshot_material, h.name, h.disable_lighting_top_old, h.physics_material, h.shared, h.drag_points⟩) <|
    .cons (.fld GP.any fun _ _ h _ => ⟨h.image, h.side_image, h.side_material, h.top_material, h.slingshot_material, h.name, h.disable_lighting_top_old, h.physics_material, h.shared, h.drag_points⟩) <|
    .cons .pure <|
    .cons (.fld (getChild_gp (readWith_gp DragPoint.arms_inv DragPoint.init_wf)) fun _ _ h hv => ⟨h.image, h.side_image, h.side_material, h.top_material, h.slingshot_material, h.name, h.disable_lighting_top_old, h.physics_material, h.shared, (forall_append h.drag_points hv)⟩) .nil)
    (timerArms_inv fun _ _ h => ⟨h.image, h.side_image, h.side_material, h.top_material, h.slingshot_material, h.name, h.disable_lighting_top_old, h.physics_material, h.shared, h.drag_points⟩))
    (sharedArms_inv (fun _ h => h.shared) fun _ _ h ha => ⟨h.image, h.side_image, h.side_material, h.top_material, h.slingshot_material, h.name, h.disable_lighting_top_old, h.physics_material, ha, h.drag_points⟩))

theorem Wall.init_wf : Wall.WF Wall.init where
  image := by decide
  side_image := by decide
  side_material := by decide
  top_material := by decide
  slingshot_material := by decide
  name := by decide
  disable_lighting_top_old := .none
  physics_material := .none
  shared := ⟨.none, .none⟩
  drag_points := by intro p hp; cases hp

theorem Wall.arms_tame : ArmsTame Wall.arms := by
  unfold Wall.arms
  exact (.append (.append (.cons (fun _ => bool_tame.fld) <|
    .cons (fun _ => bool_tame.fld) <|
    .cons (fun _ => bool_tame.fld) <|
    .cons (fun _ => bool_tame.fld) <|
    .cons (fun _ => bool_tame.fld) <|
    .cons (fun _ => f32_tame.fld) <|
    .cons (fun _ => string_tame.fld) <|
    .cons (fun _ => string_tame.fld) <|
    .cons (fun _ => string_tame.fld) <|
    .cons (fun _ => string_tame.fld) <|
    .cons (fun _ => string_tame.fld) <|
    .cons (fun _ => f32_tame.fld) <|
    .cons (fun _ => wide_tame.fld) <|
    .cons (fun _ => bool_tame.fld) <|
    .cons (fun _ => f32_tame.fld) <|
    .cons (fun _ => f32_tame.fld) <|
    .cons (fun _ => bool_tame.fld) <|
    .cons (fun _ => f32_tame.fld) <|
    .cons (fun _ => f32_tame.fld) <|
    .cons (fun _ => f32_tame.fld) <|
    .cons (fun _ => f32_tame.fld) <|
    .cons (fun _ => bool_tame.fld) <|
    .cons (fun _ => bool_tame.fld) <|
    .cons (fun _ => f32_tame.fld) <|
    .cons (fun _ => f32_tame.fld) <|
    .cons (fun _ => bool_tame.fld) <|
    .cons (fun _ => bool_tame.fld) <|
    .cons (fun _ => bool_tame.fld) <|
    .cons (fun _ => string_tame.fld) <|
    .cons (fun _ => bool_tame.fld) <|
    .cons (fun _ => bool_tame.fld) <|
    .cons (fun _ => bool_tame.fld) <|
    .cons (fun _ => bool_tame.fld) <|
    .cons (fun _ => bool_tame.fld) <|
    .cons (fun _ => quant8_tame.fld) <|
    .cons (fun _ => f32_tame.fld) <|
    .cons (fun _ => f32_tame.fld) <|
    .cons (fun _ => string_tame.fld) <|
    .cons (fun _ => bool_tame.fld) <|
    .cons (fun _ => string_tame.fld) <|
    .cons (fun _ => string_tame.fld) <|
    .cons (fun _ => string_tame.fld) <|
    .cons (fun _ => string_tame.fld) <|
    .cons (fun _ => string_tame.fld) <|
    .cons (fun _ => f32_tame.fld) <|
    .cons (fun _ => bool_tame.fld) <|
    .cons (fun _ => f32_tame.fld) <|
    .cons (fun _ => f32_tame.fld) <|
    .cons (fun _ => f32_tame.fld) <|
    .cons (fun _ => Tame.pure _) <|
    .cons (fun _ => (getChild_tame (readWith_tame DragPoint.arms_tame _)).fld) .nil) (timerArms_tame _)) (sharedArms_tame _))

end Vpin
