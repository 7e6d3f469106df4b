import Verif.Lemmas.Enums
import Verif.Lemmas.Tame
import Verif.Lemmas.ItemData
/-
`HitTarget`: reading back what was written, and what the reader guarantees for every input.
Generated by tools/gen_items.py.
-/
namespace Vpin


theorem HitTarget.reads {s : HitTarget} (h : s.WF) : OReads HitTarget.arms s.ops HitTarget.init s := by
  unfold HitTarget.ops
  refine .segTo ⟨HitTarget.init.name, s.position, HitTarget.init.size, HitTarget.init.rot_z, HitTarget.init.image, HitTarget.init.target_type, HitTarget.init.material, HitTarget.init.is_visible, HitTarget.init.is_legacy, HitTarget.init.use_hit_event, HitTarget.init.threshold, HitTarget.init.elasticity, HitTarget.init.elasticity_falloff, HitTarget.init.friction, HitTarget.init.scatter, HitTarget.init.is_collidable, HitTarget.init.disable_lighting_top_old, HitTarget.init.disable_lighting_top, HitTarget.init.disable_lighting_below, HitTarget.init.depth_bias, HitTarget.init.is_reflection_enabled, HitTarget.init.is_dropped, HitTarget.init.drop_speed, HitTarget.init.raise_delay, HitTarget.init.physics_material, HitTarget.init.overwrite_physics, HitTarget.init.timer, HitTarget.init.shared⟩
    (vertex3d_rt.req trivial rfl) rfl ?_
  refine .segTo ⟨HitTarget.init.name, s.position, s.size, HitTarget.init.rot_z, HitTarget.init.image, HitTarget.init.target_type, HitTarget.init.material, HitTarget.init.is_visible, HitTarget.init.is_legacy, HitTarget.init.use_hit_event, HitTarget.init.threshold, HitTarget.init.elasticity, HitTarget.init.elasticity_falloff, HitTarget.init.friction, HitTarget.init.scatter, HitTarget.init.is_collidable, HitTarget.init.disable_lighting_top_old, HitTarget.init.disable_lighting_top, HitTarget.init.disable_lighting_below, HitTarget.init.depth_bias, HitTarget.init.is_reflection_enabled, HitTarget.init.is_dropped, HitTarget.init.drop_speed, HitTarget.init.raise_delay, HitTarget.init.physics_material, HitTarget.init.overwrite_physics, HitTarget.init.timer, HitTarget.init.shared⟩
    (vertex3d_rt.req trivial rfl) rfl ?_
  refine .segTo ⟨HitTarget.init.name, s.position, s.size, s.rot_z, HitTarget.init.image, HitTarget.init.target_type, HitTarget.init.material, HitTarget.init.is_visible, HitTarget.init.is_legacy, HitTarget.init.use_hit_event, HitTarget.init.threshold, HitTarget.init.elasticity, HitTarget.init.elasticity_falloff, HitTarget.init.friction, HitTarget.init.scatter, HitTarget.init.is_collidable, HitTarget.init.disable_lighting_top_old, HitTarget.init.disable_lighting_top, HitTarget.init.disable_lighting_below, HitTarget.init.depth_bias, HitTarget.init.is_reflection_enabled, HitTarget.init.is_dropped, HitTarget.init.drop_speed, HitTarget.init.raise_delay, HitTarget.init.physics_material, HitTarget.init.overwrite_physics, HitTarget.init.timer, HitTarget.init.shared⟩
    (f32_rt.req trivial rfl) rfl ?_
  refine .segTo ⟨HitTarget.init.name, s.position, s.size, s.rot_z, s.image, HitTarget.init.target_type, HitTarget.init.material, HitTarget.init.is_visible, HitTarget.init.is_legacy, HitTarget.init.use_hit_event, HitTarget.init.threshold, HitTarget.init.elasticity, HitTarget.init.elasticity_falloff, HitTarget.init.friction, HitTarget.init.scatter, HitTarget.init.is_collidable, HitTarget.init.disable_lighting_top_old, HitTarget.init.disable_lighting_top, HitTarget.init.disable_lighting_below, HitTarget.init.depth_bias, HitTarget.init.is_reflection_enabled, HitTarget.init.is_dropped, HitTarget.init.drop_speed, HitTarget.init.raise_delay, HitTarget.init.physics_material, HitTarget.init.overwrite_physics, HitTarget.init.timer, HitTarget.init.shared⟩
    (string_rt.req h.image rfl) rfl ?_
  refine .segTo ⟨HitTarget.init.name, s.position, s.size, s.rot_z, s.image, s.target_type, HitTarget.init.material, HitTarget.init.is_visible, HitTarget.init.is_legacy, HitTarget.init.use_hit_event, HitTarget.init.threshold, HitTarget.init.elasticity, HitTarget.init.elasticity_falloff, HitTarget.init.friction, HitTarget.init.scatter, HitTarget.init.is_collidable, HitTarget.init.disable_lighting_top_old, HitTarget.init.disable_lighting_top, HitTarget.init.disable_lighting_below, HitTarget.init.depth_bias, HitTarget.init.is_reflection_enabled, HitTarget.init.is_dropped, HitTarget.init.drop_speed, HitTarget.init.raise_delay, HitTarget.init.physics_material, HitTarget.init.overwrite_physics, HitTarget.init.timer, HitTarget.init.shared⟩
    (TargetType.rt.req trivial rfl) rfl ?_
  refine .segTo ⟨s.name, s.position, s.size, s.rot_z, s.image, s.target_type, HitTarget.init.material, HitTarget.init.is_visible, HitTarget.init.is_legacy, HitTarget.init.use_hit_event, HitTarget.init.threshold, HitTarget.init.elasticity, HitTarget.init.elasticity_falloff, HitTarget.init.friction, HitTarget.init.scatter, HitTarget.init.is_collidable, HitTarget.init.disable_lighting_top_old, HitTarget.init.disable_lighting_top, HitTarget.init.disable_lighting_below, HitTarget.init.depth_bias, HitTarget.init.is_reflection_enabled, HitTarget.init.is_dropped, HitTarget.init.drop_speed, HitTarget.init.raise_delay, HitTarget.init.physics_material, HitTarget.init.overwrite_physics, HitTarget.init.timer, HitTarget.init.shared⟩
    (wide_rt.req h.name rfl) rfl ?_
  refine .segTo ⟨s.name, s.position, s.size, s.rot_z, s.image, s.target_type, s.material, HitTarget.init.is_visible, HitTarget.init.is_legacy, HitTarget.init.use_hit_event, HitTarget.init.threshold, HitTarget.init.elasticity, HitTarget.init.elasticity_falloff, HitTarget.init.friction, HitTarget.init.scatter, HitTarget.init.is_collidable, HitTarget.init.disable_lighting_top_old, HitTarget.init.disable_lighting_top, HitTarget.init.disable_lighting_below, HitTarget.init.depth_bias, HitTarget.init.is_reflection_enabled, HitTarget.init.is_dropped, HitTarget.init.drop_speed, HitTarget.init.raise_delay, HitTarget.init.physics_material, HitTarget.init.overwrite_physics, HitTarget.init.timer, HitTarget.init.shared⟩
    (string_rt.req h.material rfl) rfl ?_
  refine .segTo ⟨s.name, s.position, s.size, s.rot_z, s.image, s.target_type, s.material, s.is_visible, HitTarget.init.is_legacy, HitTarget.init.use_hit_event, HitTarget.init.threshold, HitTarget.init.elasticity, HitTarget.init.elasticity_falloff, HitTarget.init.friction, HitTarget.init.scatter, HitTarget.init.is_collidable, HitTarget.init.disable_lighting_top_old, HitTarget.init.disable_lighting_top, HitTarget.init.disable_lighting_below, HitTarget.init.depth_bias, HitTarget.init.is_reflection_enabled, HitTarget.init.is_dropped, HitTarget.init.drop_speed, HitTarget.init.raise_delay, HitTarget.init.physics_material, HitTarget.init.overwrite_physics, HitTarget.init.timer, HitTarget.init.shared⟩
    (bool_rt.req trivial rfl) rfl ?_
  refine .segTo ⟨s.name, s.position, s.size, s.rot_z, s.image, s.target_type, s.material, s.is_visible, s.is_legacy, HitTarget.init.use_hit_event, HitTarget.init.threshold, HitTarget.init.elasticity, HitTarget.init.elasticity_falloff, HitTarget.init.friction, HitTarget.init.scatter, HitTarget.init.is_collidable, HitTarget.init.disable_lighting_top_old, HitTarget.init.disable_lighting_top, HitTarget.init.disable_lighting_below, HitTarget.init.depth_bias, HitTarget.init.is_reflection_enabled, HitTarget.init.is_dropped, HitTarget.init.drop_speed, HitTarget.init.raise_delay, HitTarget.init.physics_material, HitTarget.init.overwrite_physics, HitTarget.init.timer, HitTarget.init.shared⟩
    (bool_rt.req trivial rfl) rfl ?_
  refine .segTo ⟨s.name, s.position, s.size, s.rot_z, s.image, s.target_type, s.material, s.is_visible, s.is_legacy, s.use_hit_event, HitTarget.init.threshold, HitTarget.init.elasticity, HitTarget.init.elasticity_falloff, HitTarget.init.friction, HitTarget.init.scatter, HitTarget.init.is_collidable, HitTarget.init.disable_lighting_top_old, HitTarget.init.disable_lighting_top, HitTarget.init.disable_lighting_below, HitTarget.init.depth_bias, HitTarget.init.is_reflection_enabled, HitTarget.init.is_dropped, HitTarget.init.drop_speed, HitTarget.init.raise_delay, HitTarget.init.physics_material, HitTarget.init.overwrite_physics, HitTarget.init.timer, HitTarget.init.shared⟩
    (bool_rt.req trivial rfl) rfl ?_
  refine .segTo ⟨s.name, s.position, s.size, s.rot_z, s.image, s.target_type, s.material, s.is_visible, s.is_legacy, s.use_hit_event, s.threshold, HitTarget.init.elasticity, HitTarget.init.elasticity_falloff, HitTarget.init.friction, HitTarget.init.scatter, HitTarget.init.is_collidable, HitTarget.init.disable_lighting_top_old, HitTarget.init.disable_lighting_top, HitTarget.init.disable_lighting_below, HitTarget.init.depth_bias, HitTarget.init.is_reflection_enabled, HitTarget.init.is_dropped, HitTarget.init.drop_speed, HitTarget.init.raise_delay, HitTarget.init.physics_material, HitTarget.init.overwrite_physics, HitTarget.init.timer, HitTarget.init.shared⟩
    (f32_rt.req trivial rfl) rfl ?_
  refine .segTo ⟨s.name, s.position, s.size, s.rot_z, s.image, s.target_type, s.material, s.is_visible, s.is_legacy, s.use_hit_event, s.threshold, s.elasticity, HitTarget.init.elasticity_falloff, HitTarget.init.friction, HitTarget.init.scatter, HitTarget.init.is_collidable, HitTarget.init.disable_lighting_top_old, HitTarget.init.disable_lighting_top, HitTarget.init.disable_lighting_below, HitTarget.init.depth_bias, HitTarget.init.is_reflection_enabled, HitTarget.init.is_dropped, HitTarget.init.drop_speed, HitTarget.init.raise_delay, HitTarget.init.physics_material, HitTarget.init.overwrite_physics, HitTarget.init.timer, HitTarget.init.shared⟩
    (f32_rt.req trivial rfl) rfl ?_
  refine .segTo ⟨s.name, s.position, s.size, s.rot_z, s.image, s.target_type, s.material, s.is_visible, s.is_legacy, s.use_hit_event, s.threshold, s.elasticity, s.elasticity_falloff, HitTarget.init.friction, HitTarget.init.scatter, HitTarget.init.is_collidable, HitTarget.init.disable_lighting_top_old, HitTarget.init.disable_lighting_top, HitTarget.init.disable_lighting_below, HitTarget.init.depth_bias, HitTarget.init.is_reflection_enabled, HitTarget.init.is_dropped, HitTarget.init.drop_speed, HitTarget.init.raise_delay, HitTarget.init.physics_material, HitTarget.init.overwrite_physics, HitTarget.init.timer, HitTarget.init.shared⟩
    (f32_rt.req trivial rfl) rfl ?_
  refine .segTo ⟨s.name, s.position, s.size, s.rot_z, s.image, s.target_type, s.material, s.is_visible, s.is_legacy, s.use_hit_event, s.threshold, s.elasticity, s.elasticity_falloff, s.friction, HitTarget.init.scatter, HitTarget.init.is_collidable, HitTarget.init.disable_lighting_top_old, HitTarget.init.disable_lighting_top, HitTarget.init.disable_lighting_below, HitTarget.init.depth_bias, HitTarget.init.is_reflection_enabled, HitTarget.init.is_dropped, HitTarget.init.drop_speed, HitTarget.init.raise_delay, HitTarget.init.physics_material, HitTarget.init.overwrite_physics, HitTarget.init.timer, HitTarget.init.shared⟩
    (f32_rt.req trivial rfl) rfl ?_
  refine .segTo ⟨s.name, s.position, s.size, s.rot_z, s.image, s.target_type, s.material, s.is_visible, s.is_legacy, s.use_hit_event, s.threshold, s.elasticity, s.elasticity_falloff, s.friction, s.scatter, HitTarget.init.is_collidable, HitTarget.init.disable_lighting_top_old, HitTarget.init.disable_lighting_top, HitTarget.init.disable_lighting_below, HitTarget.init.depth_bias, HitTarget.init.is_reflection_enabled, HitTarget.init.is_dropped, HitTarget.init.drop_speed, HitTarget.init.raise_delay, HitTarget.init.physics_material, HitTarget.init.overwrite_physics, HitTarget.init.timer, HitTarget.init.shared⟩
    (f32_rt.req trivial rfl) rfl ?_
  refine .segTo ⟨s.name, s.position, s.size, s.rot_z, s.image, s.target_type, s.material, s.is_visible, s.is_legacy, s.use_hit_event, s.threshold, s.elasticity, s.elasticity_falloff, s.friction, s.scatter, s.is_collidable, HitTarget.init.disable_lighting_top_old, HitTarget.init.disable_lighting_top, HitTarget.init.disable_lighting_below, HitTarget.init.depth_bias, HitTarget.init.is_reflection_enabled, HitTarget.init.is_dropped, HitTarget.init.drop_speed, HitTarget.init.raise_delay, HitTarget.init.physics_material, HitTarget.init.overwrite_physics, HitTarget.init.timer, HitTarget.init.shared⟩
    (bool_rt.req trivial rfl) rfl ?_
  refine .segTo ⟨s.name, s.position, s.size, s.rot_z, s.image, s.target_type, s.material, s.is_visible, s.is_legacy, s.use_hit_event, s.threshold, s.elasticity, s.elasticity_falloff, s.friction, s.scatter, s.is_collidable, s.disable_lighting_top_old, HitTarget.init.disable_lighting_top, HitTarget.init.disable_lighting_below, HitTarget.init.depth_bias, HitTarget.init.is_reflection_enabled, HitTarget.init.is_dropped, HitTarget.init.drop_speed, HitTarget.init.raise_delay, HitTarget.init.physics_material, HitTarget.init.overwrite_physics, HitTarget.init.timer, HitTarget.init.shared⟩
    (quant8_rt.opt (fun v (s : HitTarget) => { s with disable_lighting_top_old := v }) h.disable_lighting_top_old rfl rfl) rfl ?_
  refine .segTo ⟨s.name, s.position, s.size, s.rot_z, s.image, s.target_type, s.material, s.is_visible, s.is_legacy, s.use_hit_event, s.threshold, s.elasticity, s.elasticity_falloff, s.friction, s.scatter, s.is_collidable, s.disable_lighting_top_old, s.disable_lighting_top, HitTarget.init.disable_lighting_below, HitTarget.init.depth_bias, HitTarget.init.is_reflection_enabled, HitTarget.init.is_dropped, HitTarget.init.drop_speed, HitTarget.init.raise_delay, HitTarget.init.physics_material, HitTarget.init.overwrite_physics, HitTarget.init.timer, HitTarget.init.shared⟩
    (f32_rt.opt (fun v (s : HitTarget) => { s with disable_lighting_top := v }) (fun _ _ => trivial) rfl rfl) rfl ?_
  refine .segTo ⟨s.name, s.position, s.size, s.rot_z, s.image, s.target_type, s.material, s.is_visible, s.is_legacy, s.use_hit_event, s.threshold, s.elasticity, s.elasticity_falloff, s.friction, s.scatter, s.is_collidable, s.disable_lighting_top_old, s.disable_lighting_top, s.disable_lighting_below, HitTarget.init.depth_bias, HitTarget.init.is_reflection_enabled, HitTarget.init.is_dropped, HitTarget.init.drop_speed, HitTarget.init.raise_delay, HitTarget.init.physics_material, HitTarget.init.overwrite_physics, HitTarget.init.timer, HitTarget.init.shared⟩
    (f32_rt.opt (fun v (s : HitTarget) => { s with disable_lighting_below := v }) (fun _ _ => trivial) rfl rfl) rfl ?_
  refine .segTo ⟨s.name, s.position, s.size, s.rot_z, s.image, s.target_type, s.material, s.is_visible, s.is_legacy, s.use_hit_event, s.threshold, s.elasticity, s.elasticity_falloff, s.friction, s.scatter, s.is_collidable, s.disable_lighting_top_old, s.disable_lighting_top, s.disable_lighting_below, HitTarget.init.depth_bias, s.is_reflection_enabled, HitTarget.init.is_dropped, HitTarget.init.drop_speed, HitTarget.init.raise_delay, HitTarget.init.physics_material, HitTarget.init.overwrite_physics, HitTarget.init.timer, HitTarget.init.shared⟩
    (bool_rt.req trivial rfl) rfl ?_
  refine .segTo ⟨s.name, s.position, s.size, s.rot_z, s.image, s.target_type, s.material, s.is_visible, s.is_legacy, s.use_hit_event, s.threshold, s.elasticity, s.elasticity_falloff, s.friction, s.scatter, s.is_collidable, s.disable_lighting_top_old, s.disable_lighting_top, s.disable_lighting_below, s.depth_bias, s.is_reflection_enabled, HitTarget.init.is_dropped, HitTarget.init.drop_speed, HitTarget.init.raise_delay, HitTarget.init.physics_material, HitTarget.init.overwrite_physics, HitTarget.init.timer, HitTarget.init.shared⟩
    (f32_rt.req trivial rfl) rfl ?_
  refine .segTo ⟨s.name, s.position, s.size, s.rot_z, s.image, s.target_type, s.material, s.is_visible, s.is_legacy, s.use_hit_event, s.threshold, s.elasticity, s.elasticity_falloff, s.friction, s.scatter, s.is_collidable, s.disable_lighting_top_old, s.disable_lighting_top, s.disable_lighting_below, s.depth_bias, s.is_reflection_enabled, s.is_dropped, HitTarget.init.drop_speed, HitTarget.init.raise_delay, HitTarget.init.physics_material, HitTarget.init.overwrite_physics, HitTarget.init.timer, HitTarget.init.shared⟩
    (bool_rt.req trivial rfl) rfl ?_
  refine .segTo ⟨s.name, s.position, s.size, s.rot_z, s.image, s.target_type, s.material, s.is_visible, s.is_legacy, s.use_hit_event, s.threshold, s.elasticity, s.elasticity_falloff, s.friction, s.scatter, s.is_collidable, s.disable_lighting_top_old, s.disable_lighting_top, s.disable_lighting_below, s.depth_bias, s.is_reflection_enabled, s.is_dropped, s.drop_speed, HitTarget.init.raise_delay, HitTarget.init.physics_material, HitTarget.init.overwrite_physics, HitTarget.init.timer, HitTarget.init.shared⟩
    (f32_rt.req trivial rfl) rfl ?_
  refine .segTo ⟨s.name, s.position, s.size, s.rot_z, s.image, s.target_type, s.material, s.is_visible, s.is_legacy, s.use_hit_event, s.threshold, s.elasticity, s.elasticity_falloff, s.friction, s.scatter, s.is_collidable, s.disable_lighting_top_old, s.disable_lighting_top, s.disable_lighting_below, s.depth_bias, s.is_reflection_enabled, s.is_dropped, s.drop_speed, HitTarget.init.raise_delay, HitTarget.init.physics_material, HitTarget.init.overwrite_physics, s.timer, HitTarget.init.shared⟩
    (timer_reads (L := HitTarget.timerL) ⟨fun _ _ => rfl, fun _ _ _ => rfl, fun _ => rfl⟩ rfl rfl) rfl ?_
  refine .segTo ⟨s.name, s.position, s.size, s.rot_z, s.image, s.target_type, s.material, s.is_visible, s.is_legacy, s.use_hit_event, s.threshold, s.elasticity, s.elasticity_falloff, s.friction, s.scatter, s.is_collidable, s.disable_lighting_top_old, s.disable_lighting_top, s.disable_lighting_below, s.depth_bias, s.is_reflection_enabled, s.is_dropped, s.drop_speed, s.raise_delay, HitTarget.init.physics_material, HitTarget.init.overwrite_physics, s.timer, HitTarget.init.shared⟩
    (u32_rt.opt (fun v (s : HitTarget) => { s with raise_delay := v }) (fun _ _ => trivial) rfl rfl) rfl ?_
  refine .segTo ⟨s.name, s.position, s.size, s.rot_z, s.image, s.target_type, s.material, s.is_visible, s.is_legacy, s.use_hit_event, s.threshold, s.elasticity, s.elasticity_falloff, s.friction, s.scatter, s.is_collidable, s.disable_lighting_top_old, s.disable_lighting_top, s.disable_lighting_below, s.depth_bias, s.is_reflection_enabled, s.is_dropped, s.drop_speed, s.raise_delay, s.physics_material, HitTarget.init.overwrite_physics, s.timer, HitTarget.init.shared⟩
    (string_rt.opt (fun v (s : HitTarget) => { s with physics_material := v }) h.physics_material rfl rfl) rfl ?_
  refine .segTo ⟨s.name, s.position, s.size, s.rot_z, s.image, s.target_type, s.material, s.is_visible, s.is_legacy, s.use_hit_event, s.threshold, s.elasticity, s.elasticity_falloff, s.friction, s.scatter, s.is_collidable, s.disable_lighting_top_old, s.disable_lighting_top, s.disable_lighting_below, s.depth_bias, s.is_reflection_enabled, s.is_dropped, s.drop_speed, s.raise_delay, s.physics_material, s.overwrite_physics, s.timer, HitTarget.init.shared⟩
    (bool_rt.opt (fun v (s : HitTarget) => { s with overwrite_physics := v }) (fun _ _ => trivial) rfl rfl) rfl ?_
  refine .segTo ⟨s.name, s.position, s.size, s.rot_z, s.image, s.target_type, s.material, s.is_visible, s.is_legacy, s.use_hit_event, s.threshold, s.elasticity, s.elasticity_falloff, s.friction, s.scatter, s.is_collidable, s.disable_lighting_top_old, s.disable_lighting_top, s.disable_lighting_below, s.depth_bias, s.is_reflection_enabled, s.is_dropped, s.drop_speed, s.raise_delay, s.physics_material, s.overwrite_physics, s.timer, s.shared⟩
    (shared_reads (L := HitTarget.sharedL) ⟨fun _ _ => rfl, fun _ _ _ => rfl, fun _ => rfl⟩ h.shared rfl rfl rfl rfl rfl rfl) rfl ?_
  exact .done rfl

theorem HitTarget.arms_inv : ArmsInv HitTarget.WF HitTarget.arms := by
  unfold HitTarget.arms
  exact (.append (.append (.cons (.fld GP.any fun _ _ h _ => ⟨h.image, h.name, h.material, h.disable_lighting_top_old, h.physics_material, h.shared⟩) <|
    .cons (.fld GP.any fun _ _ h _ => ⟨h.image, h.name, h.material, h.disable_lighting_top_old, h.physics_material, h.shared⟩) <|
    .cons (.fld GP.any fun _ _ h _ => ⟨h.image, h.name, h.material, h.disable_lighting_top_old, h.physics_material, h.shared⟩) <|
    .cons (.fld string_gp fun _ _ h hv => ⟨hv, h.name, h.material, h.disable_lighting_top_old, h.physics_material, h.shared⟩) <|
    .cons (.fld GP.any fun _ _ h _ => ⟨h.image, h.name, h.material, h.disable_lighting_top_old, h.physics_material, h.shared⟩) <|
    .cons (.fld wide_gp fun _ _ h hv => ⟨h.image, hv, h.material, h.disable_lighting_top_old, h.physics_material, h.shared⟩) <|
    .cons (.fld string_gp fun _ _ h hv => ⟨h.image, h.name, hv, h.disable_lighting_top_old, h.physics_material, h.shared⟩) <|
    .cons (.fld GP.any fun _ _ h _ => ⟨h.image, h.name, h.material, h.disable_lighting_top_old, h.physics_material, h.shared⟩) <|
    .cons (.fld GP.any fun _ _ h _ => ⟨h.image, h.name, h.material, h.disable_lighting_top_old, h.physics_material, h.shared⟩) <|
    .cons (.fld GP.any fun _ _ h _ => ⟨h.image, h.name, h.material, h.disable_lighting_top_old, h.physics_material, h.shared⟩) <|
    .cons (.fld GP.any fun _ _ h _ => ⟨h.image, h.name, h.material, h.disable_lighting_top_old, h.physics_material, h.shared⟩) <|
    .cons (.fld GP.any fun _ _ h _ => ⟨h.image, h.name, h.material, h.disable_lighting_top_old, h.physics_material, h.shared⟩) <|
    .cons (.fld GP.any fun _ _ h _ => ⟨h.image, h.name, h.material, h.disable_lighting_top_old, h.physics_material, h.shared⟩) <|
    .cons (.fld GP.any fun _ _ h _ => ⟨h.image, h.name, h.material, h.disable_lighting_top_old, h.physics_material, h.shared⟩) <|
    .cons (.fld GP.any fun _ _ h _ => ⟨h.image, h.name, h.material, h.disable_lighting_top_old, h.physics_material, h.shared⟩) <|
    .cons (.fld GP.any fun _ _ h _ => ⟨h.image, h.name, h.material, h.disable_lighting_top_old, h.physics_material, h.shared⟩) <|
    .cons (.fld quant8_gp fun _ _ h hv => ⟨h.image, h.name, h.material, .some hv, h.physics_material, h.shared⟩) <|
    .cons (.fld GP.any fun _ _ h _ => ⟨h.image, h.name, h.material, h.disable_lighting_top_old, h.physics_material, h.shared⟩) <|
    .cons (.fld GP.any fun _ _ h _ => ⟨h.image, h.name, h.material, h.disable_lighting_top_old, h.physics_material, h.shared⟩) <|
    .cons (.fld GP.any fun _ _ h _ => ⟨h.image, h.name, h.material, h.disable_lighting_top_old, h.physics_material, h.shared⟩) <|
    .cons (.fld GP.any fun _ _ h _ => ⟨h.image, h.name, h.material, h.disable_lighting_top_old, h.physics_material, h.shared⟩) <|
    .cons (.fld GP.any fun _ _ h _ => ⟨h.image, h.name, h.material, h.disable_lighting_top_old, h.physics_material, h.shared⟩) <|
    .cons (.fld GP.any fun _ _ h _ => ⟨h.image, h.name, h.material, h.disable_lighting_top_old, h.physics_material, h.shared⟩) <|
    .cons (.fld GP.any fun _ _ h _ => ⟨h.image, h.name, h.material, h.disable_lighting_top_old, h.physics_material, h.shared⟩) <|
    .cons (.fld string_gp fun _ _ h hv => ⟨h.image, h.name, h.material, h.disable_lighting_top_old, .some hv, h.shared⟩) <|
    .cons (.fld GP.any fun _ _ h _ => ⟨h.image, h.name, h.material, h.disable_lighting_top_old, h.physics_material, h.shared⟩) .nil)
    (timerArms_inv fun _ _ h => ⟨h.image, h.name, h.material, h.disable_lighting_top_old, h.physics_material, h.shared⟩))
    (sharedArms_inv (fun _ h => h.shared) fun _ _ h ha => ⟨h.image, h.name, h.material, h.disable_lighting_top_old, h.physics_material, ha⟩))

theorem HitTarget.init_wf : HitTarget.WF HitTarget.init where
  image := by decide
  name := by decide
  material := by decide
  disable_lighting_top_old := .none
  physics_material := .none
  shared := ⟨.none, .none⟩

theorem HitTarget.arms_tame : ArmsTame HitTarget.arms := by
  unfold HitTarget.arms
  exact (.append (.append (.cons (fun _ => vertex3d_tame.fld) <|
    .cons (fun _ => vertex3d_tame.fld) <|
    .cons (fun _ => f32_tame.fld) <|
    .cons (fun _ => string_tame.fld) <|
    .cons (fun _ => enum_tame.fld) <|
    .cons (fun _ => wide_tame.fld) <|
    .cons (fun _ => string_tame.fld) <|
    .cons (fun _ => bool_tame.fld) <|
    .cons (fun _ => bool_tame.fld) <|
    .cons (fun _ => bool_tame.fld) <|
    .cons (fun _ => f32_tame.fld) <|
    .cons (fun _ => f32_tame.fld) <|
    .cons (fun _ => f32_tame.fld) <|
    .cons (fun _ => f32_tame.fld) <|
    .cons (fun _ => f32_tame.fld) <|
    .cons (fun _ => bool_tame.fld) <|
    .cons (fun _ => quant8_tame.fld) <|
    .cons (fun _ => f32_tame.fld) <|
    .cons (fun _ => f32_tame.fld) <|
    .cons (fun _ => bool_tame.fld) <|
    .cons (fun _ => f32_tame.fld) <|
    .cons (fun _ => bool_tame.fld) <|
    .cons (fun _ => f32_tame.fld) <|
    .cons (fun _ => u32_tame.fld) <|
    .cons (fun _ => string_tame.fld) <|
    .cons (fun _ => bool_tame.fld) .nil) (timerArms_tame _)) (sharedArms_tame _))

end Vpin
