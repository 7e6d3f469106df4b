import Verif.Lemmas.Enums
import Verif.Lemmas.Tame
import Verif.Lemmas.ItemData
/-
`Flipper`: reading back what was written, and what the reader guarantees for every input.
Generated by tools/gen_items.py.
-/
namespace Vpin


theorem Flipper.reads {s : Flipper} (h : s.WF) : OReads Flipper.arms s.ops Flipper.init s := by
  unfold Flipper.ops
  refine .segTo ⟨Flipper.init.name, s.center, Flipper.init.base_radius, Flipper.init.end_radius, Flipper.init.flipper_radius_max, Flipper.init.return_, Flipper.init.start_angle, Flipper.init.end_angle, Flipper.init.override_physics, Flipper.init.mass, Flipper.init.surface, Flipper.init.material, Flipper.init.rubber_material, Flipper.init.rubber_thickness_int, Flipper.init.rubber_thickness, Flipper.init.rubber_height_int, Flipper.init.rubber_height, Flipper.init.rubber_width_int, Flipper.init.rubber_width, Flipper.init.strength, Flipper.init.elasticity, Flipper.init.elasticity_falloff, Flipper.init.friction, Flipper.init.ramp_up, Flipper.init.scatter, Flipper.init.torque_damping, Flipper.init.torque_damping_angle, Flipper.init.flipper_radius_min, Flipper.init.is_visible, Flipper.init.is_enabled, Flipper.init.height, Flipper.init.image, Flipper.init.is_reflection_enabled, Flipper.init.timer, Flipper.init.shared⟩
    (vertex2d_rt.req trivial rfl) rfl ?_
  refine .segTo ⟨Flipper.init.name, s.center, s.base_radius, Flipper.init.end_radius, Flipper.init.flipper_radius_max, Flipper.init.return_, Flipper.init.start_angle, Flipper.init.end_angle, Flipper.init.override_physics, Flipper.init.mass, Flipper.init.surface, Flipper.init.material, Flipper.init.rubber_material, Flipper.init.rubber_thickness_int, Flipper.init.rubber_thickness, Flipper.init.rubber_height_int, Flipper.init.rubber_height, Flipper.init.rubber_width_int, Flipper.init.rubber_width, Flipper.init.strength, Flipper.init.elasticity, Flipper.init.elasticity_falloff, Flipper.init.friction, Flipper.init.ramp_up, Flipper.init.scatter, Flipper.init.torque_damping, Flipper.init.torque_damping_angle, Flipper.init.flipper_radius_min, Flipper.init.is_visible, Flipper.init.is_enabled, Flipper.init.height, Flipper.init.image, Flipper.init.is_reflection_enabled, Flipper.init.timer, Flipper.init.shared⟩
    (f32_rt.req trivial rfl) rfl ?_
  refine .segTo ⟨Flipper.init.name, s.center, s.base_radius, s.end_radius, Flipper.init.flipper_radius_max, Flipper.init.return_, Flipper.init.start_angle, Flipper.init.end_angle, Flipper.init.override_physics, Flipper.init.mass, Flipper.init.surface, Flipper.init.material, Flipper.init.rubber_material, Flipper.init.rubber_thickness_int, Flipper.init.rubber_thickness, Flipper.init.rubber_height_int, Flipper.init.rubber_height, Flipper.init.rubber_width_int, Flipper.init.rubber_width, Flipper.init.strength, Flipper.init.elasticity, Flipper.init.elasticity_falloff, Flipper.init.friction, Flipper.init.ramp_up, Flipper.init.scatter, Flipper.init.torque_damping, Flipper.init.torque_damping_angle, Flipper.init.flipper_radius_min, Flipper.init.is_visible, Flipper.init.is_enabled, Flipper.init.height, Flipper.init.image, Flipper.init.is_reflection_enabled, Flipper.init.timer, Flipper.init.shared⟩
    (f32_rt.req trivial rfl) rfl ?_
  refine .segTo ⟨Flipper.init.name, s.center, s.base_radius, s.end_radius, s.flipper_radius_max, Flipper.init.return_, Flipper.init.start_angle, Flipper.init.end_angle, Flipper.init.override_physics, Flipper.init.mass, Flipper.init.surface, Flipper.init.material, Flipper.init.rubber_material, Flipper.init.rubber_thickness_int, Flipper.init.rubber_thickness, Flipper.init.rubber_height_int, Flipper.init.rubber_height, Flipper.init.rubber_width_int, Flipper.init.rubber_width, Flipper.init.strength, Flipper.init.elasticity, Flipper.init.elasticity_falloff, Flipper.init.friction, Flipper.init.ramp_up, Flipper.init.scatter, Flipper.init.torque_damping, Flipper.init.torque_damping_angle, Flipper.init.flipper_radius_min, Flipper.init.is_visible, Flipper.init.is_enabled, Flipper.init.height, Flipper.init.image, Flipper.init.is_reflection_enabled, Flipper.init.timer, Flipper.init.shared⟩
    (f32_rt.req trivial rfl) rfl ?_
  refine .segTo ⟨Flipper.init.name, s.center, s.base_radius, s.end_radius, s.flipper_radius_max, s.return_, Flipper.init.start_angle, Flipper.init.end_angle, Flipper.init.override_physics, Flipper.init.mass, Flipper.init.surface, Flipper.init.material, Flipper.init.rubber_material, Flipper.init.rubber_thickness_int, Flipper.init.rubber_thickness, Flipper.init.rubber_height_int, Flipper.init.rubber_height, Flipper.init.rubber_width_int, Flipper.init.rubber_width, Flipper.init.strength, Flipper.init.elasticity, Flipper.init.elasticity_falloff, Flipper.init.friction, Flipper.init.ramp_up, Flipper.init.scatter, Flipper.init.torque_damping, Flipper.init.torque_damping_angle, Flipper.init.flipper_radius_min, Flipper.init.is_visible, Flipper.init.is_enabled, Flipper.init.height, Flipper.init.image, Flipper.init.is_reflection_enabled, Flipper.init.timer, Flipper.init.shared⟩
    (f32_rt.req trivial rfl) rfl ?_
  refine .segTo ⟨Flipper.init.name, s.center, s.base_radius, s.end_radius, s.flipper_radius_max, s.return_, s.start_angle, Flipper.init.end_angle, Flipper.init.override_physics, Flipper.init.mass, Flipper.init.surface, Flipper.init.material, Flipper.init.rubber_material, Flipper.init.rubber_thickness_int, Flipper.init.rubber_thickness, Flipper.init.rubber_height_int, Flipper.init.rubber_height, Flipper.init.rubber_width_int, Flipper.init.rubber_width, Flipper.init.strength, Flipper.init.elasticity, Flipper.init.elasticity_falloff, Flipper.init.friction, Flipper.init.ramp_up, Flipper.init.scatter, Flipper.init.torque_damping, Flipper.init.torque_damping_angle, Flipper.init.flipper_radius_min, Flipper.init.is_visible, Flipper.init.is_enabled, Flipper.init.height, Flipper.init.image, Flipper.init.is_reflection_enabled, Flipper.init.timer, Flipper.init.shared⟩
    (f32_rt.req trivial rfl) rfl ?_
  refine .segTo ⟨Flipper.init.name, s.center, s.base_radius, s.end_radius, s.flipper_radius_max, s.return_, s.start_angle, s.end_angle, Flipper.init.override_physics, Flipper.init.mass, Flipper.init.surface, Flipper.init.material, Flipper.init.rubber_material, Flipper.init.rubber_thickness_int, Flipper.init.rubber_thickness, Flipper.init.rubber_height_int, Flipper.init.rubber_height, Flipper.init.rubber_width_int, Flipper.init.rubber_width, Flipper.init.strength, Flipper.init.elasticity, Flipper.init.elasticity_falloff, Flipper.init.friction, Flipper.init.ramp_up, Flipper.init.scatter, Flipper.init.torque_damping, Flipper.init.torque_damping_angle, Flipper.init.flipper_radius_min, Flipper.init.is_visible, Flipper.init.is_enabled, Flipper.init.height, Flipper.init.image, Flipper.init.is_reflection_enabled, Flipper.init.timer, Flipper.init.shared⟩
    (f32_rt.req trivial rfl) rfl ?_
  refine .segTo ⟨Flipper.init.name, s.center, s.base_radius, s.end_radius, s.flipper_radius_max, s.return_, s.start_angle, s.end_angle, s.override_physics, Flipper.init.mass, Flipper.init.surface, Flipper.init.material, Flipper.init.rubber_material, Flipper.init.rubber_thickness_int, Flipper.init.rubber_thickness, Flipper.init.rubber_height_int, Flipper.init.rubber_height, Flipper.init.rubber_width_int, Flipper.init.rubber_width, Flipper.init.strength, Flipper.init.elasticity, Flipper.init.elasticity_falloff, Flipper.init.friction, Flipper.init.ramp_up, Flipper.init.scatter, Flipper.init.torque_damping, Flipper.init.torque_damping_angle, Flipper.init.flipper_radius_min, Flipper.init.is_visible, Flipper.init.is_enabled, Flipper.init.height, Flipper.init.image, Flipper.init.is_reflection_enabled, Flipper.init.timer, Flipper.init.shared⟩
    (u32_rt.req trivial rfl) rfl ?_
  refine .segTo ⟨Flipper.init.name, s.center, s.base_radius, s.end_radius, s.flipper_radius_max, s.return_, s.start_angle, s.end_angle, s.override_physics, s.mass, Flipper.init.surface, Flipper.init.material, Flipper.init.rubber_material, Flipper.init.rubber_thickness_int, Flipper.init.rubber_thickness, Flipper.init.rubber_height_int, Flipper.init.rubber_height, Flipper.init.rubber_width_int, Flipper.init.rubber_width, Flipper.init.strength, Flipper.init.elasticity, Flipper.init.elasticity_falloff, Flipper.init.friction, Flipper.init.ramp_up, Flipper.init.scatter, Flipper.init.torque_damping, Flipper.init.torque_damping_angle, Flipper.init.flipper_radius_min, Flipper.init.is_visible, Flipper.init.is_enabled, Flipper.init.height, Flipper.init.image, Flipper.init.is_reflection_enabled, Flipper.init.timer, Flipper.init.shared⟩
    (f32_rt.req trivial rfl) rfl ?_
  refine .segTo ⟨Flipper.init.name, s.center, s.base_radius, s.end_radius, s.flipper_radius_max, s.return_, s.start_angle, s.end_angle, s.override_physics, s.mass, Flipper.init.surface, Flipper.init.material, Flipper.init.rubber_material, Flipper.init.rubber_thickness_int, Flipper.init.rubber_thickness, Flipper.init.rubber_height_int, Flipper.init.rubber_height, Flipper.init.rubber_width_int, Flipper.init.rubber_width, Flipper.init.strength, Flipper.init.elasticity, Flipper.init.elasticity_falloff, Flipper.init.friction, Flipper.init.ramp_up, Flipper.init.scatter, Flipper.init.torque_damping, Flipper.init.torque_damping_angle, Flipper.init.flipper_radius_min, Flipper.init.is_visible, Flipper.init.is_enabled, Flipper.init.height, Flipper.init.image, Flipper.init.is_reflection_enabled, s.timer, Flipper.init.shared⟩
    (timer_reads (L := Flipper.timerL) ⟨fun _ _ => rfl, fun _ _ _ => rfl, fun _ => rfl⟩ rfl rfl) rfl ?_
  refine .segTo ⟨Flipper.init.name, s.center, s.base_radius, s.end_radius, s.flipper_radius_max, s.return_, s.start_angle, s.end_angle, s.override_physics, s.mass, s.surface, Flipper.init.material, Flipper.init.rubber_material, Flipper.init.rubber_thickness_int, Flipper.init.rubber_thickness, Flipper.init.rubber_height_int, Flipper.init.rubber_height, Flipper.init.rubber_width_int, Flipper.init.rubber_width, Flipper.init.strength, Flipper.init.elasticity, Flipper.init.elasticity_falloff, Flipper.init.friction, Flipper.init.ramp_up, Flipper.init.scatter, Flipper.init.torque_damping, Flipper.init.torque_damping_angle, Flipper.init.flipper_radius_min, Flipper.init.is_visible, Flipper.init.is_enabled, Flipper.init.height, Flipper.init.image, Flipper.init.is_reflection_enabled, s.timer, Flipper.init.shared⟩
    (string_rt.req h.surface rfl) rfl ?_
  refine .segTo ⟨Flipper.init.name, s.center, s.base_radius, s.end_radius, s.flipper_radius_max, s.return_, s.start_angle, s.end_angle, s.override_physics, s.mass, s.surface, s.material, Flipper.init.rubber_material, Flipper.init.rubber_thickness_int, Flipper.init.rubber_thickness, Flipper.init.rubber_height_int, Flipper.init.rubber_height, Flipper.init.rubber_width_int, Flipper.init.rubber_width, Flipper.init.strength, Flipper.init.elasticity, Flipper.init.elasticity_falloff, Flipper.init.friction, Flipper.init.ramp_up, Flipper.init.scatter, Flipper.init.torque_damping, Flipper.init.torque_damping_angle, Flipper.init.flipper_radius_min, Flipper.init.is_visible, Flipper.init.is_enabled, Flipper.init.height, Flipper.init.image, Flipper.init.is_reflection_enabled, s.timer, Flipper.init.shared⟩
    (string_rt.req h.material rfl) rfl ?_
  refine .segTo ⟨s.name, s.center, s.base_radius, s.end_radius, s.flipper_radius_max, s.return_, s.start_angle, s.end_angle, s.override_physics, s.mass, s.surface, s.material, Flipper.init.rubber_material, Flipper.init.rubber_thickness_int, Flipper.init.rubber_thickness, Flipper.init.rubber_height_int, Flipper.init.rubber_height, Flipper.init.rubber_width_int, Flipper.init.rubber_width, Flipper.init.strength, Flipper.init.elasticity, Flipper.init.elasticity_falloff, Flipper.init.friction, Flipper.init.ramp_up, Flipper.init.scatter, Flipper.init.torque_damping, Flipper.init.torque_damping_angle, Flipper.init.flipper_radius_min, Flipper.init.is_visible, Flipper.init.is_enabled, Flipper.init.height, Flipper.init.image, Flipper.init.is_reflection_enabled, s.timer, Flipper.init.shared⟩
    (wide_rt.req h.name rfl) rfl ?_
  refine .segTo ⟨s.name, s.center, s.base_radius, s.end_radius, s.flipper_radius_max, s.return_, s.start_angle, s.end_angle, s.override_physics, s.mass, s.surface, s.material, s.rubber_material, Flipper.init.rubber_thickness_int, Flipper.init.rubber_thickness, Flipper.init.rubber_height_int, Flipper.init.rubber_height, Flipper.init.rubber_width_int, Flipper.init.rubber_width, Flipper.init.strength, Flipper.init.elasticity, Flipper.init.elasticity_falloff, Flipper.init.friction, Flipper.init.ramp_up, Flipper.init.scatter, Flipper.init.torque_damping, Flipper.init.torque_damping_angle, Flipper.init.flipper_radius_min, Flipper.init.is_visible, Flipper.init.is_enabled, Flipper.init.height, Flipper.init.image, Flipper.init.is_reflection_enabled, s.timer, Flipper.init.shared⟩
    (string_rt.req h.rubber_material rfl) rfl ?_
  refine .segTo ⟨s.name, s.center, s.base_radius, s.end_radius, s.flipper_radius_max, s.return_, s.start_angle, s.end_angle, s.override_physics, s.mass, s.surface, s.material, s.rubber_material, s.rubber_thickness_int, Flipper.init.rubber_thickness, Flipper.init.rubber_height_int, Flipper.init.rubber_height, Flipper.init.rubber_width_int, Flipper.init.rubber_width, Flipper.init.strength, Flipper.init.elasticity, Flipper.init.elasticity_falloff, Flipper.init.friction, Flipper.init.ramp_up, Flipper.init.scatter, Flipper.init.torque_damping, Flipper.init.torque_damping_angle, Flipper.init.flipper_radius_min, Flipper.init.is_visible, Flipper.init.is_enabled, Flipper.init.height, Flipper.init.image, Flipper.init.is_reflection_enabled, s.timer, Flipper.init.shared⟩
    (u32_rt.req trivial rfl) rfl ?_
  refine .segTo ⟨s.name, s.center, s.base_radius, s.end_radius, s.flipper_radius_max, s.return_, s.start_angle, s.end_angle, s.override_physics, s.mass, s.surface, s.material, s.rubber_material, s.rubber_thickness_int, s.rubber_thickness, Flipper.init.rubber_height_int, Flipper.init.rubber_height, Flipper.init.rubber_width_int, Flipper.init.rubber_width, Flipper.init.strength, Flipper.init.elasticity, Flipper.init.elasticity_falloff, Flipper.init.friction, Flipper.init.ramp_up, Flipper.init.scatter, Flipper.init.torque_damping, Flipper.init.torque_damping_angle, Flipper.init.flipper_radius_min, Flipper.init.is_visible, Flipper.init.is_enabled, Flipper.init.height, Flipper.init.image, Flipper.init.is_reflection_enabled, s.timer, Flipper.init.shared⟩
    (f32_rt.opt (fun v (s : Flipper) => { s with rubber_thickness := v }) (fun _ _ => trivial) rfl rfl) rfl ?_
  refine .segTo ⟨s.name, s.center, s.base_radius, s.end_radius, s.flipper_radius_max, s.return_, s.start_angle, s.end_angle, s.override_physics, s.mass, s.surface, s.material, s.rubber_material, s.rubber_thickness_int, s.rubber_thickness, s.rubber_height_int, Flipper.init.rubber_height, Flipper.init.rubber_width_int, Flipper.init.rubber_width, Flipper.init.strength, Flipper.init.elasticity, Flipper.init.elasticity_falloff, Flipper.init.friction, Flipper.init.ramp_up, Flipper.init.scatter, Flipper.init.torque_damping, Flipper.init.torque_damping_angle, Flipper.init.flipper_radius_min, Flipper.init.is_visible, Flipper.init.is_enabled, Flipper.init.height, Flipper.init.image, Flipper.init.is_reflection_enabled, s.timer, Flipper.init.shared⟩
    (u32_rt.req trivial rfl) rfl ?_
  refine .segTo ⟨s.name, s.center, s.base_radius, s.end_radius, s.flipper_radius_max, s.return_, s.start_angle, s.end_angle, s.override_physics, s.mass, s.surface, s.material, s.rubber_material, s.rubber_thickness_int, s.rubber_thickness, s.rubber_height_int, s.rubber_height, Flipper.init.rubber_width_int, Flipper.init.rubber_width, Flipper.init.strength, Flipper.init.elasticity, Flipper.init.elasticity_falloff, Flipper.init.friction, Flipper.init.ramp_up, Flipper.init.scatter, Flipper.init.torque_damping, Flipper.init.torque_damping_angle, Flipper.init.flipper_radius_min, Flipper.init.is_visible, Flipper.init.is_enabled, Flipper.init.height, Flipper.init.image, Flipper.init.is_reflection_enabled, s.timer, Flipper.init.shared⟩
    (f32_rt.opt (fun v (s : Flipper) => { s with rubber_height := v }) (fun _ _ => trivial) rfl rfl) rfl ?_
  refine .segTo ⟨s.name, s.center, s.base_radius, s.end_radius, s.flipper_radius_max, s.return_, s.start_angle, s.end_angle, s.override_physics, s.mass, s.surface, s.material, s.rubber_material, s.rubber_thickness_int, s.rubber_thickness, s.rubber_height_int, s.rubber_height, s.rubber_width_int, Flipper.init.rubber_width, Flipper.init.strength, Flipper.init.elasticity, Flipper.init.elasticity_falloff, Flipper.init.friction, Flipper.init.ramp_up, Flipper.init.scatter, Flipper.init.torque_damping, Flipper.init.torque_damping_angle, Flipper.init.flipper_radius_min, Flipper.init.is_visible, Flipper.init.is_enabled, Flipper.init.height, Flipper.init.image, Flipper.init.is_reflection_enabled, s.timer, Flipper.init.shared⟩
    (u32_rt.req trivial rfl) rfl ?_
  refine .segTo ⟨s.name, s.center, s.base_radius, s.end_radius, s.flipper_radius_max, s.return_, s.start_angle, s.end_angle, s.override_physics, s.mass, s.surface, s.material, s.rubber_material, s.rubber_thickness_int, s.rubber_thickness, s.rubber_height_int, s.rubber_height, s.rubber_width_int, s.rubber_width, Flipper.init.strength, Flipper.init.elasticity, Flipper.init.elasticity_falloff, Flipper.init.friction, Flipper.init.ramp_up, Flipper.init.scatter, Flipper.init.torque_damping, Flipper.init.torque_damping_angle, Flipper.init.flipper_radius_min, Flipper.init.is_visible, Flipper.init.is_enabled, Flipper.init.height, Flipper.init.image, Flipper.init.is_reflection_enabled, s.timer, Flipper.init.shared⟩
    (f32_rt.opt (fun v (s : Flipper) => { s with rubber_width := v }) (fun _ _ => trivial) rfl rfl) rfl ?_
  refine .segTo ⟨s.name, s.center, s.base_radius, s.end_radius, s.flipper_radius_max, s.return_, s.start_angle, s.end_angle, s.override_physics, s.mass, s.surface, s.material, s.rubber_material, s.rubber_thickness_int, s.rubber_thickness, s.rubber_height_int, s.rubber_height, s.rubber_width_int, s.rubber_width, s.strength, Flipper.init.elasticity, Flipper.init.elasticity_falloff, Flipper.init.friction, Flipper.init.ramp_up, Flipper.init.scatter, Flipper.init.torque_damping, Flipper.init.torque_damping_angle, Flipper.init.flipper_radius_min, Flipper.init.is_visible, Flipper.init.is_enabled, Flipper.init.height, Flipper.init.image, Flipper.init.is_reflection_enabled, s.timer, Flipper.init.shared⟩
    (f32_rt.req trivial rfl) rfl ?_
  refine .segTo ⟨s.name, s.center, s.base_radius, s.end_radius, s.flipper_radius_max, s.return_, s.start_angle, s.end_angle, s.override_physics, s.mass, s.surface, s.material, s.rubber_material, s.rubber_thickness_int, s.rubber_thickness, s.rubber_height_int, s.rubber_height, s.rubber_width_int, s.rubber_width, s.strength, s.elasticity, Flipper.init.elasticity_falloff, Flipper.init.friction, Flipper.init.ramp_up, Flipper.init.scatter, Flipper.init.torque_damping, Flipper.init.torque_damping_angle, Flipper.init.flipper_radius_min, Flipper.init.is_visible, Flipper.init.is_enabled, Flipper.init.height, Flipper.init.image, Flipper.init.is_reflection_enabled, s.timer, Flipper.init.shared⟩
    (f32_rt.req trivial rfl) rfl ?_
  refine .segTo ⟨s.name, s.center, s.base_radius, s.end_radius, s.flipper_radius_max, s.return_, s.start_angle, s.end_angle, s.override_physics, s.mass, s.surface, s.material, s.rubber_material, s.rubber_thickness_int, s.rubber_thickness, s.rubber_height_int, s.rubber_height, s.rubber_width_int, s.rubber_width, s.strength, s.elasticity, s.elasticity_falloff, Flipper.init.friction, Flipper.init.ramp_up, Flipper.init.scatter, Flipper.init.torque_damping, Flipper.init.torque_damping_angle, Flipper.init.flipper_radius_min, Flipper.init.is_visible, Flipper.init.is_enabled, Flipper.init.height, Flipper.init.image, Flipper.init.is_reflection_enabled, s.timer, Flipper.init.shared⟩
    (f32_rt.req trivial rfl) rfl ?_
  refine .segTo ⟨s.name, s.center, s.base_radius, s.end_radius, s.flipper_radius_max, s.return_, s.start_angle, s.end_angle, s.override_physics, s.mass, s.surface, s.material, s.rubber_material, s.rubber_thickness_int, s.rubber_thickness, s.rubber_height_int, s.rubber_height, s.rubber_width_int, s.rubber_width, s.strength, s.elasticity, s.elasticity_falloff, s.friction, Flipper.init.ramp_up, Flipper.init.scatter, Flipper.init.torque_damping, Flipper.init.torque_damping_angle, Flipper.init.flipper_radius_min, Flipper.init.is_visible, Flipper.init.is_enabled, Flipper.init.height, Flipper.init.image, Flipper.init.is_reflection_enabled, s.timer, Flipper.init.shared⟩
    (f32_rt.req trivial rfl) rfl ?_
  refine .segTo ⟨s.name, s.center, s.base_radius, s.end_radius, s.flipper_radius_max, s.return_, s.start_angle, s.end_angle, s.override_physics, s.mass, s.surface, s.material, s.rubber_material, s.rubber_thickness_int, s.rubber_thickness, s.rubber_height_int, s.rubber_height, s.rubber_width_int, s.rubber_width, s.strength, s.elasticity, s.elasticity_falloff, s.friction, s.ramp_up, Flipper.init.scatter, Flipper.init.torque_damping, Flipper.init.torque_damping_angle, Flipper.init.flipper_radius_min, Flipper.init.is_visible, Flipper.init.is_enabled, Flipper.init.height, Flipper.init.image, Flipper.init.is_reflection_enabled, s.timer, Flipper.init.shared⟩
    (f32_rt.req trivial rfl) rfl ?_
  refine .segTo ⟨s.name, s.center, s.base_radius, s.end_radius, s.flipper_radius_max, s.return_, s.start_angle, s.end_angle, s.override_physics, s.mass, s.surface, s.material, s.rubber_material, s.rubber_thickness_int, s.rubber_thickness, s.rubber_height_int, s.rubber_height, s.rubber_width_int, s.rubber_width, s.strength, s.elasticity, s.elasticity_falloff, s.friction, s.ramp_up, s.scatter, Flipper.init.torque_damping, Flipper.init.torque_damping_angle, Flipper.init.flipper_radius_min, Flipper.init.is_visible, Flipper.init.is_enabled, Flipper.init.height, Flipper.init.image, Flipper.init.is_reflection_enabled, s.timer, Flipper.init.shared⟩
    (f32_rt.opt (fun v (s : Flipper) => { s with scatter := v }) (fun _ _ => trivial) rfl rfl) rfl ?_
  refine .segTo ⟨s.name, s.center, s.base_radius, s.end_radius, s.flipper_radius_max, s.return_, s.start_angle, s.end_angle, s.override_physics, s.mass, s.surface, s.material, s.rubber_material, s.rubber_thickness_int, s.rubber_thickness, s.rubber_height_int, s.rubber_height, s.rubber_width_int, s.rubber_width, s.strength, s.elasticity, s.elasticity_falloff, s.friction, s.ramp_up, s.scatter, s.torque_damping, Flipper.init.torque_damping_angle, Flipper.init.flipper_radius_min, Flipper.init.is_visible, Flipper.init.is_enabled, Flipper.init.height, Flipper.init.image, Flipper.init.is_reflection_enabled, s.timer, Flipper.init.shared⟩
    (f32_rt.opt (fun v (s : Flipper) => { s with torque_damping := v }) (fun _ _ => trivial) rfl rfl) rfl ?_
  refine .segTo ⟨s.name, s.center, s.base_radius, s.end_radius, s.flipper_radius_max, s.return_, s.start_angle, s.end_angle, s.override_physics, s.mass, s.surface, s.material, s.rubber_material, s.rubber_thickness_int, s.rubber_thickness, s.rubber_height_int, s.rubber_height, s.rubber_width_int, s.rubber_width, s.strength, s.elasticity, s.elasticity_falloff, s.friction, s.ramp_up, s.scatter, s.torque_damping, s.torque_damping_angle, Flipper.init.flipper_radius_min, Flipper.init.is_visible, Flipper.init.is_enabled, Flipper.init.height, Flipper.init.image, Flipper.init.is_reflection_enabled, s.timer, Flipper.init.shared⟩
    (f32_rt.opt (fun v (s : Flipper) => { s with torque_damping_angle := v }) (fun _ _ => trivial) rfl rfl) rfl ?_
  refine .segTo ⟨s.name, s.center, s.base_radius, s.end_radius, s.flipper_radius_max, s.return_, s.start_angle, s.end_angle, s.override_physics, s.mass, s.surface, s.material, s.rubber_material, s.rubber_thickness_int, s.rubber_thickness, s.rubber_height_int, s.rubber_height, s.rubber_width_int, s.rubber_width, s.strength, s.elasticity, s.elasticity_falloff, s.friction, s.ramp_up, s.scatter, s.torque_damping, s.torque_damping_angle, Flipper.init.flipper_radius_min, s.is_visible, Flipper.init.is_enabled, Flipper.init.height, Flipper.init.image, Flipper.init.is_reflection_enabled, s.timer, Flipper.init.shared⟩
    (bool_rt.req trivial rfl) rfl ?_
  refine .segTo ⟨s.name, s.center, s.base_radius, s.end_radius, s.flipper_radius_max, s.return_, s.start_angle, s.end_angle, s.override_physics, s.mass, s.surface, s.material, s.rubber_material, s.rubber_thickness_int, s.rubber_thickness, s.rubber_height_int, s.rubber_height, s.rubber_width_int, s.rubber_width, s.strength, s.elasticity, s.elasticity_falloff, s.friction, s.ramp_up, s.scatter, s.torque_damping, s.torque_damping_angle, Flipper.init.flipper_radius_min, s.is_visible, s.is_enabled, Flipper.init.height, Flipper.init.image, Flipper.init.is_reflection_enabled, s.timer, Flipper.init.shared⟩
    (bool_rt.req trivial rfl) rfl ?_
  refine .segTo ⟨s.name, s.center, s.base_radius, s.end_radius, s.flipper_radius_max, s.return_, s.start_angle, s.end_angle, s.override_physics, s.mass, s.surface, s.material, s.rubber_material, s.rubber_thickness_int, s.rubber_thickness, s.rubber_height_int, s.rubber_height, s.rubber_width_int, s.rubber_width, s.strength, s.elasticity, s.elasticity_falloff, s.friction, s.ramp_up, s.scatter, s.torque_damping, s.torque_damping_angle, s.flipper_radius_min, s.is_visible, s.is_enabled, Flipper.init.height, Flipper.init.image, Flipper.init.is_reflection_enabled, s.timer, Flipper.init.shared⟩
    (f32_rt.req trivial rfl) rfl ?_
  refine .segTo ⟨s.name, s.center, s.base_radius, s.end_radius, s.flipper_radius_max, s.return_, s.start_angle, s.end_angle, s.override_physics, s.mass, s.surface, s.material, s.rubber_material, s.rubber_thickness_int, s.rubber_thickness, s.rubber_height_int, s.rubber_height, s.rubber_width_int, s.rubber_width, s.strength, s.elasticity, s.elasticity_falloff, s.friction, s.ramp_up, s.scatter, s.torque_damping, s.torque_damping_angle, s.flipper_radius_min, s.is_visible, s.is_enabled, s.height, Flipper.init.image, Flipper.init.is_reflection_enabled, s.timer, Flipper.init.shared⟩
    (f32_rt.req trivial rfl) rfl ?_
  refine .segTo ⟨s.name, s.center, s.base_radius, s.end_radius, s.flipper_radius_max, s.return_, s.start_angle, s.end_angle, s.override_physics, s.mass, s.surface, s.material, s.rubber_material, s.rubber_thickness_int, s.rubber_thickness, s.rubber_height_int, s.rubber_height, s.rubber_width_int, s.rubber_width, s.strength, s.elasticity, s.elasticity_falloff, s.friction, s.ramp_up, s.scatter, s.torque_damping, s.torque_damping_angle, s.flipper_radius_min, s.is_visible, s.is_enabled, s.height, s.image, Flipper.init.is_reflection_enabled, s.timer, Flipper.init.shared⟩
    (string_rt.opt (fun v (s : Flipper) => { s with image := v }) h.image rfl rfl) rfl ?_
  refine .segTo ⟨s.name, s.center, s.base_radius, s.end_radius, s.flipper_radius_max, s.return_, s.start_angle, s.end_angle, s.override_physics, s.mass, s.surface, s.material, s.rubber_material, s.rubber_thickness_int, s.rubber_thickness, s.rubber_height_int, s.rubber_height, s.rubber_width_int, s.rubber_width, s.strength, s.elasticity, s.elasticity_falloff, s.friction, s.ramp_up, s.scatter, s.torque_damping, s.torque_damping_angle, s.flipper_radius_min, s.is_visible, s.is_enabled, s.height, s.image, s.is_reflection_enabled, s.timer, Flipper.init.shared⟩
    (bool_rt.opt (fun v (s : Flipper) => { s with is_reflection_enabled := v }) (fun _ _ => trivial) rfl rfl) rfl ?_
  refine .segTo ⟨s.name, s.center, s.base_radius, s.end_radius, s.flipper_radius_max, s.return_, s.start_angle, s.end_angle, s.override_physics, s.mass, s.surface, s.material, s.rubber_material, s.rubber_thickness_int, s.rubber_thickness, s.rubber_height_int, s.rubber_height, s.rubber_width_int, s.rubber_width, s.strength, s.elasticity, s.elasticity_falloff, s.friction, s.ramp_up, s.scatter, s.torque_damping, s.torque_damping_angle, s.flipper_radius_min, s.is_visible, s.is_enabled, s.height, s.image, s.is_reflection_enabled, s.timer, s.shared⟩
    (shared_reads (L := Flipper.sharedL) ⟨fun _ _ => rfl, fun _ _ _ => rfl, fun _ => rfl⟩ h.shared rfl rfl rfl rfl rfl rfl) rfl ?_
  exact .done rfl

theorem Flipper.arms_inv : ArmsInv Flipper.WF Flipper.arms := by
  unfold Flipper.arms
  exact (.append (.append (.cons (.fld GP.any fun _ _ h _ => ⟨h.surface, h.material, h.name, h.rubber_material, h.image, h.shared⟩) <|
    .cons (.fld GP.any fun _ _ h _ => ⟨h.surface, h.material, h.name, h.rubber_material, h.image, h.shared⟩) <|
    .cons (.fld GP.any fun _ _ h _ => ⟨h.surface, h.material, h.name, h.rubber_material, h.image, h.shared⟩) <|
    .cons (.fld GP.any fun _ _ h _ => ⟨h.surface, h.material, h.name, h.rubber_material, h.image, h.shared⟩) <|
    .cons (.fld GP.any fun _ _ h _ => ⟨h.surface, h.material, h.name, h.rubber_material, h.image, h.shared⟩) <|
    .cons (.fld GP.any fun _ _ h _ => ⟨h.surface, h.material, h.name, h.rubber_material, h.image, h.shared⟩) <|
    .cons (.fld GP.any fun _ _ h _ => ⟨h.surface, h.material, h.name, h.rubber_material, h.image, h.shared⟩) <|
    .cons (.fld GP.any fun _ _ h _ => ⟨h.surface, h.material, h.name, h.rubber_material, h.image, h.shared⟩) <|
    .cons (.fld GP.any fun _ _ h _ => ⟨h.surface, h.material, h.name, h.rubber_material, h.image, h.shared⟩) <|
    .cons (.fld string_gp fun _ _ h hv => ⟨hv, h.material, h.name, h.rubber_material, h.image, h.shared⟩) <|
    .cons (.fld string_gp fun _ _ h hv => ⟨h.surface, hv, h.name, h.rubber_material, h.image, h.shared⟩) <|
    .cons (.fld wide_gp fun _ _ h hv => ⟨h.surface, h.material, hv, h.rubber_material, h.image, h.shared⟩) <|
    .cons (.fld string_gp fun _ _ h hv => ⟨h.surface, h.material, h.name, hv, h.image, h.shared⟩) <|
    .cons (.fld GP.any fun _ _ h _ => ⟨h.surface, h.material, h.name, h.rubber_material, h.image, h.shared⟩) <|
    .cons (.fld GP.any fun _ _ h _ => ⟨h.surface, h.material, h.name, h.rubber_material, h.image, h.shared⟩) <|
    .cons (.fld GP.any fun _ _ h _ => ⟨h.surface, h.material, h.name, h.rubber_material, h.image, h.shared⟩) <|
    .cons (.fld GP.any fun _ _ h _ => ⟨h.surface, h.material, h.name, h.rubber_material, h.image, h.shared⟩) <|
    .cons (.fld GP.any fun _ _ h _ => ⟨h.surface, h.material, h.name, h.rubber_material, h.image, h.shared⟩) <|
    .cons (.fld GP.any fun _ _ h _ => ⟨h.surface, h.material, h.name, h.rubber_material, h.image, h.shared⟩) <|
    .cons (.fld GP.any fun _ _ h _ => ⟨h.surface, h.material, h.name, h.rubber_material, h.image, h.shared⟩) <|
    .cons (.fld GP.any fun _ _ h _ => ⟨h.surface, h.material, h.name, h.rubber_material, h.image, h.shared⟩) <|
    .cons (.fld GP.any fun _ _ h _ => ⟨h.surface, h.material, h.name, h.rubber_material, h.image, h.shared⟩) <|
    .cons (.fld GP.any fun _ _ h _ => ⟨h.surface, h.material, h.name, h.rubber_material, h.image, h.shared⟩) <|
    .cons (.fld GP.any fun _ _ h _ => ⟨h.surface, h.material, h.name, h.rubber_material, h.image, h.shared⟩) <|
    .cons (.fld GP.any fun _ _ h _ => ⟨h.surface, h.material, h.name, h.rubber_material, h.image, h.shared⟩) <|
    .cons (.fld GP.any fun _ _ h _ => ⟨h.surface, h.material, h.name, h.rubber_material, h.image, h.shared⟩) <|
    .cons (.fld GP.any fun _ _ h _ => ⟨h.surface, h.material, h.name, h.rubber_material, h.image, h.shared⟩) <|
    .cons (.fld GP.any fun _ _ h _ => ⟨h.surface, h.material, h.name, h.rubber_material, h.image, h.shared⟩) <|
    .cons (.fld GP.any fun _ _ h _ => ⟨h.surface, h.material, h.name, h.rubber_material, h.image, h.shared⟩) <|
    .cons (.fld GP.any fun _ _ h _ => ⟨h.surface, h.material, h.name, h.rubber_material, h.image, h.shared⟩) <|
    .cons (.fld GP.any fun _ _ h _ => ⟨h.surface, h.material, h.name, h.rubber_material, h.image, h.shared⟩) <|
    .cons (.fld string_gp fun _ _ h hv => ⟨h.surface, h.material, h.name, h.rubber_material, .some hv, h.shared⟩) <|
    .cons (.fld GP.any fun _ _ h _ => ⟨h.surface, h.material, h.name, h.rubber_material, h.image, h.shared⟩) .nil)
    (timerArms_inv fun _ _ h => ⟨h.surface, h.material, h.name, h.rubber_material, h.image, h.shared⟩))
    (sharedArms_inv (fun _ h => h.shared) fun _ _ h ha => ⟨h.surface, h.material, h.name, h.rubber_material, h.image, ha⟩))

theorem Flipper.init_wf : Flipper.WF Flipper.init where
  surface := by decide
  material := by decide
  name := by decide
  rubber_material := by decide
  image := .none
  shared := ⟨.none, .none⟩

theorem Flipper.arms_tame : ArmsTame Flipper.arms := by
  unfold Flipper.arms
  exact (.append (.append (.cons (fun _ => vertex2d_tame.fld) <|
    .cons (fun _ => f32_tame.fld) <|
    .cons (fun _ => f32_tame.fld) <|
    .cons (fun _ => f32_tame.fld) <|
    .cons (fun _ => f32_tame.fld) <|
    .cons (fun _ => f32_tame.fld) <|
    .cons (fun _ => f32_tame.fld) <|
    .cons (fun _ => u32_tame.fld) <|
    .cons (fun _ => f32_tame.fld) <|
    .cons (fun _ => string_tame.fld) <|
    .cons (fun _ => string_tame.fld) <|
    .cons (fun _ => wide_tame.fld) <|
    .cons (fun _ => string_tame.fld) <|
    .cons (fun _ => u32_tame.fld) <|
    .cons (fun _ => f32_tame.fld) <|
    .cons (fun _ => u32_tame.fld) <|
    .cons (fun _ => f32_tame.fld) <|
    .cons (fun _ => u32_tame.fld) <|
    .cons (fun _ => f32_tame.fld) <|
    .cons (fun _ => f32_tame.fld) <|
    .cons (fun _ => f32_tame.fld) <|
    .cons (fun _ => f32_tame.fld) <|
    .cons (fun _ => f32_tame.fld) <|
    .cons (fun _ => f32_tame.fld) <|
    .cons (fun _ => f32_tame.fld) <|
    .cons (fun _ => f32_tame.fld) <|
    .cons (fun _ => f32_tame.fld) <|
    .cons (fun _ => bool_tame.fld) <|
    .cons (fun _ => bool_tame.fld) <|
    .cons (fun _ => f32_tame.fld) <|
    .cons (fun _ => f32_tame.fld) <|
    .cons (fun _ => string_tame.fld) <|
    .cons (fun _ => bool_tame.fld) .nil) (timerArms_tame _)) (sharedArms_tame _))

end Vpin
