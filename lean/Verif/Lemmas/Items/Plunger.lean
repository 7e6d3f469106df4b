import Verif.Lemmas.Enums
import Verif.Lemmas.Tame
import Verif.Lemmas.ItemData
/-
`Plunger`: reading back what was written, and what the reader guarantees for every input.
Generated by tools/gen_items.py.
-/
namespace Vpin


theorem Plunger.reads {s : Plunger} (h : s.WF) : OReads Plunger.arms s.ops Plunger.init s := by
  unfold Plunger.ops
  refine .segTo ⟨s.center, Plunger.init.width, Plunger.init.height, Plunger.init.z_adjust, Plunger.init.stroke, Plunger.init.speed_pull, Plunger.init.speed_fire, Plunger.init.plunger_type, Plunger.init.anim_frames, Plunger.init.material, Plunger.init.image, Plunger.init.mech_strength, Plunger.init.is_mech_plunger, Plunger.init.auto_plunger, Plunger.init.park_position, Plunger.init.scatter_velocity, Plunger.init.momentum_xfer, Plunger.init.is_visible, Plunger.init.is_reflection_enabled, Plunger.init.surface, Plunger.init.name, Plunger.init.tip_shape, Plunger.init.rod_diam, Plunger.init.ring_gap, Plunger.init.ring_diam, Plunger.init.ring_width, Plunger.init.spring_diam, Plunger.init.spring_gauge, Plunger.init.spring_loops, Plunger.init.spring_end_loops, Plunger.init.timer, Plunger.init.shared⟩
    (vertex2d_rt.req trivial rfl) rfl ?_
  refine .segTo ⟨s.center, s.width, Plunger.init.height, Plunger.init.z_adjust, Plunger.init.stroke, Plunger.init.speed_pull, Plunger.init.speed_fire, Plunger.init.plunger_type, Plunger.init.anim_frames, Plunger.init.material, Plunger.init.image, Plunger.init.mech_strength, Plunger.init.is_mech_plunger, Plunger.init.auto_plunger, Plunger.init.park_position, Plunger.init.scatter_velocity, Plunger.init.momentum_xfer, Plunger.init.is_visible, Plunger.init.is_reflection_enabled, Plunger.init.surface, Plunger.init.name, Plunger.init.tip_shape, Plunger.init.rod_diam, Plunger.init.ring_gap, Plunger.init.ring_diam, Plunger.init.ring_width, Plunger.init.spring_diam, Plunger.init.spring_gauge, Plunger.init.spring_loops, Plunger.init.spring_end_loops, Plunger.init.timer, Plunger.init.shared⟩
    (f32_rt.req trivial rfl) rfl ?_
  refine .segTo ⟨s.center, s.width, s.height, Plunger.init.z_adjust, Plunger.init.stroke, Plunger.init.speed_pull, Plunger.init.speed_fire, Plunger.init.plunger_type, Plunger.init.anim_frames, Plunger.init.material, Plunger.init.image, Plunger.init.mech_strength, Plunger.init.is_mech_plunger, Plunger.init.auto_plunger, Plunger.init.park_position, Plunger.init.scatter_velocity, Plunger.init.momentum_xfer, Plunger.init.is_visible, Plunger.init.is_reflection_enabled, Plunger.init.surface, Plunger.init.name, Plunger.init.tip_shape, Plunger.init.rod_diam, Plunger.init.ring_gap, Plunger.init.ring_diam, Plunger.init.ring_width, Plunger.init.spring_diam, Plunger.init.spring_gauge, Plunger.init.spring_loops, Plunger.init.spring_end_loops, Plunger.init.timer, Plunger.init.shared⟩
    (f32_rt.req trivial rfl) rfl ?_
  refine .segTo ⟨s.center, s.width, s.height, s.z_adjust, Plunger.init.stroke, Plunger.init.speed_pull, Plunger.init.speed_fire, Plunger.init.plunger_type, Plunger.init.anim_frames, Plunger.init.material, Plunger.init.image, Plunger.init.mech_strength, Plunger.init.is_mech_plunger, Plunger.init.auto_plunger, Plunger.init.park_position, Plunger.init.scatter_velocity, Plunger.init.momentum_xfer, Plunger.init.is_visible, Plunger.init.is_reflection_enabled, Plunger.init.surface, Plunger.init.name, Plunger.init.tip_shape, Plunger.init.rod_diam, Plunger.init.ring_gap, Plunger.init.ring_diam, Plunger.init.ring_width, Plunger.init.spring_diam, Plunger.init.spring_gauge, Plunger.init.spring_loops, Plunger.init.spring_end_loops, Plunger.init.timer, Plunger.init.shared⟩
    (f32_rt.req trivial rfl) rfl ?_
  refine .segTo ⟨s.center, s.width, s.height, s.z_adjust, s.stroke, Plunger.init.speed_pull, Plunger.init.speed_fire, Plunger.init.plunger_type, Plunger.init.anim_frames, Plunger.init.material, Plunger.init.image, Plunger.init.mech_strength, Plunger.init.is_mech_plunger, Plunger.init.auto_plunger, Plunger.init.park_position, Plunger.init.scatter_velocity, Plunger.init.momentum_xfer, Plunger.init.is_visible, Plunger.init.is_reflection_enabled, Plunger.init.surface, Plunger.init.name, Plunger.init.tip_shape, Plunger.init.rod_diam, Plunger.init.ring_gap, Plunger.init.ring_diam, Plunger.init.ring_width, Plunger.init.spring_diam, Plunger.init.spring_gauge, Plunger.init.spring_loops, Plunger.init.spring_end_loops, Plunger.init.timer, Plunger.init.shared⟩
    (f32_rt.req trivial rfl) rfl ?_
  refine .segTo ⟨s.center, s.width, s.height, s.z_adjust, s.stroke, s.speed_pull, Plunger.init.speed_fire, Plunger.init.plunger_type, Plunger.init.anim_frames, Plunger.init.material, Plunger.init.image, Plunger.init.mech_strength, Plunger.init.is_mech_plunger, Plunger.init.auto_plunger, Plunger.init.park_position, Plunger.init.scatter_velocity, Plunger.init.momentum_xfer, Plunger.init.is_visible, Plunger.init.is_reflection_enabled, Plunger.init.surface, Plunger.init.name, Plunger.init.tip_shape, Plunger.init.rod_diam, Plunger.init.ring_gap, Plunger.init.ring_diam, Plunger.init.ring_width, Plunger.init.spring_diam, Plunger.init.spring_gauge, Plunger.init.spring_loops, Plunger.init.spring_end_loops, Plunger.init.timer, Plunger.init.shared⟩
    (f32_rt.req trivial rfl) rfl ?_
  refine .segTo ⟨s.center, s.width, s.height, s.z_adjust, s.stroke, s.speed_pull, s.speed_fire, Plunger.init.plunger_type, Plunger.init.anim_frames, Plunger.init.material, Plunger.init.image, Plunger.init.mech_strength, Plunger.init.is_mech_plunger, Plunger.init.auto_plunger, Plunger.init.park_position, Plunger.init.scatter_velocity, Plunger.init.momentum_xfer, Plunger.init.is_visible, Plunger.init.is_reflection_enabled, Plunger.init.surface, Plunger.init.name, Plunger.init.tip_shape, Plunger.init.rod_diam, Plunger.init.ring_gap, Plunger.init.ring_diam, Plunger.init.ring_width, Plunger.init.spring_diam, Plunger.init.spring_gauge, Plunger.init.spring_loops, Plunger.init.spring_end_loops, Plunger.init.timer, Plunger.init.shared⟩
    (f32_rt.req trivial rfl) rfl ?_
  refine .segTo ⟨s.center, s.width, s.height, s.z_adjust, s.stroke, s.speed_pull, s.speed_fire, s.plunger_type, Plunger.init.anim_frames, Plunger.init.material, Plunger.init.image, Plunger.init.mech_strength, Plunger.init.is_mech_plunger, Plunger.init.auto_plunger, Plunger.init.park_position, Plunger.init.scatter_velocity, Plunger.init.momentum_xfer, Plunger.init.is_visible, Plunger.init.is_reflection_enabled, Plunger.init.surface, Plunger.init.name, Plunger.init.tip_shape, Plunger.init.rod_diam, Plunger.init.ring_gap, Plunger.init.ring_diam, Plunger.init.ring_width, Plunger.init.spring_diam, Plunger.init.spring_gauge, Plunger.init.spring_loops, Plunger.init.spring_end_loops, Plunger.init.timer, Plunger.init.shared⟩
    (PlungerType.rt.req trivial rfl) rfl ?_
  refine .segTo ⟨s.center, s.width, s.height, s.z_adjust, s.stroke, s.speed_pull, s.speed_fire, s.plunger_type, s.anim_frames, Plunger.init.material, Plunger.init.image, Plunger.init.mech_strength, Plunger.init.is_mech_plunger, Plunger.init.auto_plunger, Plunger.init.park_position, Plunger.init.scatter_velocity, Plunger.init.momentum_xfer, Plunger.init.is_visible, Plunger.init.is_reflection_enabled, Plunger.init.surface, Plunger.init.name, Plunger.init.tip_shape, Plunger.init.rod_diam, Plunger.init.ring_gap, Plunger.init.ring_diam, Plunger.init.ring_width, Plunger.init.spring_diam, Plunger.init.spring_gauge, Plunger.init.spring_loops, Plunger.init.spring_end_loops, Plunger.init.timer, Plunger.init.shared⟩
    (u32_rt.req trivial rfl) rfl ?_
  refine .segTo ⟨s.center, s.width, s.height, s.z_adjust, s.stroke, s.speed_pull, s.speed_fire, s.plunger_type, s.anim_frames, s.material, Plunger.init.image, Plunger.init.mech_strength, Plunger.init.is_mech_plunger, Plunger.init.auto_plunger, Plunger.init.park_position, Plunger.init.scatter_velocity, Plunger.init.momentum_xfer, Plunger.init.is_visible, Plunger.init.is_reflection_enabled, Plunger.init.surface, Plunger.init.name, Plunger.init.tip_shape, Plunger.init.rod_diam, Plunger.init.ring_gap, Plunger.init.ring_diam, Plunger.init.ring_width, Plunger.init.spring_diam, Plunger.init.spring_gauge, Plunger.init.spring_loops, Plunger.init.spring_end_loops, Plunger.init.timer, Plunger.init.shared⟩
    (string_rt.req h.material rfl) rfl ?_
  refine .segTo ⟨s.center, s.width, s.height, s.z_adjust, s.stroke, s.speed_pull, s.speed_fire, s.plunger_type, s.anim_frames, s.material, s.image, Plunger.init.mech_strength, Plunger.init.is_mech_plunger, Plunger.init.auto_plunger, Plunger.init.park_position, Plunger.init.scatter_velocity, Plunger.init.momentum_xfer, Plunger.init.is_visible, Plunger.init.is_reflection_enabled, Plunger.init.surface, Plunger.init.name, Plunger.init.tip_shape, Plunger.init.rod_diam, Plunger.init.ring_gap, Plunger.init.ring_diam, Plunger.init.ring_width, Plunger.init.spring_diam, Plunger.init.spring_gauge, Plunger.init.spring_loops, Plunger.init.spring_end_loops, Plunger.init.timer, Plunger.init.shared⟩
    (string_rt.req h.image rfl) rfl ?_
  refine .segTo ⟨s.center, s.width, s.height, s.z_adjust, s.stroke, s.speed_pull, s.speed_fire, s.plunger_type, s.anim_frames, s.material, s.image, s.mech_strength, Plunger.init.is_mech_plunger, Plunger.init.auto_plunger, Plunger.init.park_position, Plunger.init.scatter_velocity, Plunger.init.momentum_xfer, Plunger.init.is_visible, Plunger.init.is_reflection_enabled, Plunger.init.surface, Plunger.init.name, Plunger.init.tip_shape, Plunger.init.rod_diam, Plunger.init.ring_gap, Plunger.init.ring_diam, Plunger.init.ring_width, Plunger.init.spring_diam, Plunger.init.spring_gauge, Plunger.init.spring_loops, Plunger.init.spring_end_loops, Plunger.init.timer, Plunger.init.shared⟩
    (f32_rt.req trivial rfl) rfl ?_
  refine .segTo ⟨s.center, s.width, s.height, s.z_adjust, s.stroke, s.speed_pull, s.speed_fire, s.plunger_type, s.anim_frames, s.material, s.image, s.mech_strength, s.is_mech_plunger, Plunger.init.auto_plunger, Plunger.init.park_position, Plunger.init.scatter_velocity, Plunger.init.momentum_xfer, Plunger.init.is_visible, Plunger.init.is_reflection_enabled, Plunger.init.surface, Plunger.init.name, Plunger.init.tip_shape, Plunger.init.rod_diam, Plunger.init.ring_gap, Plunger.init.ring_diam, Plunger.init.ring_width, Plunger.init.spring_diam, Plunger.init.spring_gauge, Plunger.init.spring_loops, Plunger.init.spring_end_loops, Plunger.init.timer, Plunger.init.shared⟩
    (bool_rt.req trivial rfl) rfl ?_
  refine .segTo ⟨s.center, s.width, s.height, s.z_adjust, s.stroke, s.speed_pull, s.speed_fire, s.plunger_type, s.anim_frames, s.material, s.image, s.mech_strength, s.is_mech_plunger, s.auto_plunger, Plunger.init.park_position, Plunger.init.scatter_velocity, Plunger.init.momentum_xfer, Plunger.init.is_visible, Plunger.init.is_reflection_enabled, Plunger.init.surface, Plunger.init.name, Plunger.init.tip_shape, Plunger.init.rod_diam, Plunger.init.ring_gap, Plunger.init.ring_diam, Plunger.init.ring_width, Plunger.init.spring_diam, Plunger.init.spring_gauge, Plunger.init.spring_loops, Plunger.init.spring_end_loops, Plunger.init.timer, Plunger.init.shared⟩
    (bool_rt.req trivial rfl) rfl ?_
  refine .segTo ⟨s.center, s.width, s.height, s.z_adjust, s.stroke, s.speed_pull, s.speed_fire, s.plunger_type, s.anim_frames, s.material, s.image, s.mech_strength, s.is_mech_plunger, s.auto_plunger, s.park_position, Plunger.init.scatter_velocity, Plunger.init.momentum_xfer, Plunger.init.is_visible, Plunger.init.is_reflection_enabled, Plunger.init.surface, Plunger.init.name, Plunger.init.tip_shape, Plunger.init.rod_diam, Plunger.init.ring_gap, Plunger.init.ring_diam, Plunger.init.ring_width, Plunger.init.spring_diam, Plunger.init.spring_gauge, Plunger.init.spring_loops, Plunger.init.spring_end_loops, Plunger.init.timer, Plunger.init.shared⟩
    (f32_rt.req trivial rfl) rfl ?_
  refine .segTo ⟨s.center, s.width, s.height, s.z_adjust, s.stroke, s.speed_pull, s.speed_fire, s.plunger_type, s.anim_frames, s.material, s.image, s.mech_strength, s.is_mech_plunger, s.auto_plunger, s.park_position, s.scatter_velocity, Plunger.init.momentum_xfer, Plunger.init.is_visible, Plunger.init.is_reflection_enabled, Plunger.init.surface, Plunger.init.name, Plunger.init.tip_shape, Plunger.init.rod_diam, Plunger.init.ring_gap, Plunger.init.ring_diam, Plunger.init.ring_width, Plunger.init.spring_diam, Plunger.init.spring_gauge, Plunger.init.spring_loops, Plunger.init.spring_end_loops, Plunger.init.timer, Plunger.init.shared⟩
    (f32_rt.req trivial rfl) rfl ?_
  refine .segTo ⟨s.center, s.width, s.height, s.z_adjust, s.stroke, s.speed_pull, s.speed_fire, s.plunger_type, s.anim_frames, s.material, s.image, s.mech_strength, s.is_mech_plunger, s.auto_plunger, s.park_position, s.scatter_velocity, s.momentum_xfer, Plunger.init.is_visible, Plunger.init.is_reflection_enabled, Plunger.init.surface, Plunger.init.name, Plunger.init.tip_shape, Plunger.init.rod_diam, Plunger.init.ring_gap, Plunger.init.ring_diam, Plunger.init.ring_width, Plunger.init.spring_diam, Plunger.init.spring_gauge, Plunger.init.spring_loops, Plunger.init.spring_end_loops, Plunger.init.timer, Plunger.init.shared⟩
    (f32_rt.req trivial rfl) rfl ?_
  refine .segTo ⟨s.center, s.width, s.height, s.z_adjust, s.stroke, s.speed_pull, s.speed_fire, s.plunger_type, s.anim_frames, s.material, s.image, s.mech_strength, s.is_mech_plunger, s.auto_plunger, s.park_position, s.scatter_velocity, s.momentum_xfer, Plunger.init.is_visible, Plunger.init.is_reflection_enabled, Plunger.init.surface, Plunger.init.name, Plunger.init.tip_shape, Plunger.init.rod_diam, Plunger.init.ring_gap, Plunger.init.ring_diam, Plunger.init.ring_width, Plunger.init.spring_diam, Plunger.init.spring_gauge, Plunger.init.spring_loops, Plunger.init.spring_end_loops, s.timer, Plunger.init.shared⟩
    (timer_reads (L := Plunger.timerL) ⟨fun _ _ => rfl, fun _ _ _ => rfl, fun _ => rfl⟩ rfl rfl) rfl ?_
  refine .segTo ⟨s.center, s.width, s.height, s.z_adjust, s.stroke, s.speed_pull, s.speed_fire, s.plunger_type, s.anim_frames, s.material, s.image, s.mech_strength, s.is_mech_plunger, s.auto_plunger, s.park_position, s.scatter_velocity, s.momentum_xfer, s.is_visible, Plunger.init.is_reflection_enabled, Plunger.init.surface, Plunger.init.name, Plunger.init.tip_shape, Plunger.init.rod_diam, Plunger.init.ring_gap, Plunger.init.ring_diam, Plunger.init.ring_width, Plunger.init.spring_diam, Plunger.init.spring_gauge, Plunger.init.spring_loops, Plunger.init.spring_end_loops, s.timer, Plunger.init.shared⟩
    (bool_rt.req trivial rfl) rfl ?_
  refine .segTo ⟨s.center, s.width, s.height, s.z_adjust, s.stroke, s.speed_pull, s.speed_fire, s.plunger_type, s.anim_frames, s.material, s.image, s.mech_strength, s.is_mech_plunger, s.auto_plunger, s.park_position, s.scatter_velocity, s.momentum_xfer, s.is_visible, s.is_reflection_enabled, Plunger.init.surface, Plunger.init.name, Plunger.init.tip_shape, Plunger.init.rod_diam, Plunger.init.ring_gap, Plunger.init.ring_diam, Plunger.init.ring_width, Plunger.init.spring_diam, Plunger.init.spring_gauge, Plunger.init.spring_loops, Plunger.init.spring_end_loops, s.timer, Plunger.init.shared⟩
    (bool_rt.opt (fun v (s : Plunger) => { s with is_reflection_enabled := v }) (fun _ _ => trivial) rfl rfl) rfl ?_
  refine .segTo ⟨s.center, s.width, s.height, s.z_adjust, s.stroke, s.speed_pull, s.speed_fire, s.plunger_type, s.anim_frames, s.material, s.image, s.mech_strength, s.is_mech_plunger, s.auto_plunger, s.park_position, s.scatter_velocity, s.momentum_xfer, s.is_visible, s.is_reflection_enabled, s.surface, Plunger.init.name, Plunger.init.tip_shape, Plunger.init.rod_diam, Plunger.init.ring_gap, Plunger.init.ring_diam, Plunger.init.ring_width, Plunger.init.spring_diam, Plunger.init.spring_gauge, Plunger.init.spring_loops, Plunger.init.spring_end_loops, s.timer, Plunger.init.shared⟩
    (string_rt.req h.surface rfl) rfl ?_
  refine .segTo ⟨s.center, s.width, s.height, s.z_adjust, s.stroke, s.speed_pull, s.speed_fire, s.plunger_type, s.anim_frames, s.material, s.image, s.mech_strength, s.is_mech_plunger, s.auto_plunger, s.park_position, s.scatter_velocity, s.momentum_xfer, s.is_visible, s.is_reflection_enabled, s.surface, s.name, Plunger.init.tip_shape, Plunger.init.rod_diam, Plunger.init.ring_gap, Plunger.init.ring_diam, Plunger.init.ring_width, Plunger.init.spring_diam, Plunger.init.spring_gauge, Plunger.init.spring_loops, Plunger.init.spring_end_loops, s.timer, Plunger.init.shared⟩
    (wide_rt.req h.name rfl) rfl ?_
  refine .segTo ⟨s.center, s.width, s.height, s.z_adjust, s.stroke, s.speed_pull, s.speed_fire, s.plunger_type, s.anim_frames, s.material, s.image, s.mech_strength, s.is_mech_plunger, s.auto_plunger, s.park_position, s.scatter_velocity, s.momentum_xfer, s.is_visible, s.is_reflection_enabled, s.surface, s.name, s.tip_shape, Plunger.init.rod_diam, Plunger.init.ring_gap, Plunger.init.ring_diam, Plunger.init.ring_width, Plunger.init.spring_diam, Plunger.init.spring_gauge, Plunger.init.spring_loops, Plunger.init.spring_end_loops, s.timer, Plunger.init.shared⟩
    (string_rt.req h.tip_shape rfl) rfl ?_
  refine .segTo ⟨s.center, s.width, s.height, s.z_adjust, s.stroke, s.speed_pull, s.speed_fire, s.plunger_type, s.anim_frames, s.material, s.image, s.mech_strength, s.is_mech_plunger, s.auto_plunger, s.park_position, s.scatter_velocity, s.momentum_xfer, s.is_visible, s.is_reflection_enabled, s.surface, s.name, s.tip_shape, s.rod_diam, Plunger.init.ring_gap, Plunger.init.ring_diam, Plunger.init.ring_width, Plunger.init.spring_diam, Plunger.init.spring_gauge, Plunger.init.spring_loops, Plunger.init.spring_end_loops, s.timer, Plunger.init.shared⟩
    (f32_rt.req trivial rfl) rfl ?_
  refine .segTo ⟨s.center, s.width, s.height, s.z_adjust, s.stroke, s.speed_pull, s.speed_fire, s.plunger_type, s.anim_frames, s.material, s.image, s.mech_strength, s.is_mech_plunger, s.auto_plunger, s.park_position, s.scatter_velocity, s.momentum_xfer, s.is_visible, s.is_reflection_enabled, s.surface, s.name, s.tip_shape, s.rod_diam, s.ring_gap, Plunger.init.ring_diam, Plunger.init.ring_width, Plunger.init.spring_diam, Plunger.init.spring_gauge, Plunger.init.spring_loops, Plunger.init.spring_end_loops, s.timer, Plunger.init.shared⟩
    (f32_rt.req trivial rfl) rfl ?_
  refine .segTo ⟨s.center, s.width, s.height, s.z_adjust, s.stroke, s.speed_pull, s.speed_fire, s.plunger_type, s.anim_frames, s.material, s.image, s.mech_strength, s.is_mech_plunger, s.auto_plunger, s.park_position, s.scatter_velocity, s.momentum_xfer, s.is_visible, s.is_reflection_enabled, s.surface, s.name, s.tip_shape, s.rod_diam, s.ring_gap, s.ring_diam, Plunger.init.ring_width, Plunger.init.spring_diam, Plunger.init.spring_gauge, Plunger.init.spring_loops, Plunger.init.spring_end_loops, s.timer, Plunger.init.shared⟩
    (f32_rt.req trivial rfl) rfl ?_
  refine .segTo ⟨s.center, s.width, s.height, s.z_adjust, s.stroke, s.speed_pull, s.speed_fire, s.plunger_type, s.anim_frames, s.material, s.image, s.mech_strength, s.is_mech_plunger, s.auto_plunger, s.park_position, s.scatter_velocity, s.momentum_xfer, s.is_visible, s.is_reflection_enabled, s.surface, s.name, s.tip_shape, s.rod_diam, s.ring_gap, s.ring_diam, s.ring_width, Plunger.init.spring_diam, Plunger.init.spring_gauge, Plunger.init.spring_loops, Plunger.init.spring_end_loops, s.timer, Plunger.init.shared⟩
    (f32_rt.req trivial rfl) rfl ?_
  refine .segTo ⟨s.center, s.width, s.height, s.z_adjust, s.stroke, s.speed_pull, s.speed_fire, s.plunger_type, s.anim_frames, s.material, s.image, s.mech_strength, s.is_mech_plunger, s.auto_plunger, s.park_position, s.scatter_velocity, s.momentum_xfer, s.is_visible, s.is_reflection_enabled, s.surface, s.name, s.tip_shape, s.rod_diam, s.ring_gap, s.ring_diam, s.ring_width, s.spring_diam, Plunger.init.spring_gauge, Plunger.init.spring_loops, Plunger.init.spring_end_loops, s.timer, Plunger.init.shared⟩
    (f32_rt.req trivial rfl) rfl ?_
  refine .segTo ⟨s.center, s.width, s.height, s.z_adjust, s.stroke, s.speed_pull, s.speed_fire, s.plunger_type, s.anim_frames, s.material, s.image, s.mech_strength, s.is_mech_plunger, s.auto_plunger, s.park_position, s.scatter_velocity, s.momentum_xfer, s.is_visible, s.is_reflection_enabled, s.surface, s.name, s.tip_shape, s.rod_diam, s.ring_gap, s.ring_diam, s.ring_width, s.spring_diam, s.spring_gauge, Plunger.init.spring_loops, Plunger.init.spring_end_loops, s.timer, Plunger.init.shared⟩
    (f32_rt.req trivial rfl) rfl ?_
  refine .segTo ⟨s.center, s.width, s.height, s.z_adjust, s.stroke, s.speed_pull, s.speed_fire, s.plunger_type, s.anim_frames, s.material, s.image, s.mech_strength, s.is_mech_plunger, s.auto_plunger, s.park_position, s.scatter_velocity, s.momentum_xfer, s.is_visible, s.is_reflection_enabled, s.surface, s.name, s.tip_shape, s.rod_diam, s.ring_gap, s.ring_diam, s.ring_width, s.spring_diam, s.spring_gauge, s.spring_loops, Plunger.init.spring_end_loops, s.timer, Plunger.init.shared⟩
    (f32_rt.req trivial rfl) rfl ?_
  refine .segTo ⟨s.center, s.width, s.height, s.z_adjust, s.stroke, s.speed_pull, s.speed_fire, s.plunger_type, s.anim_frames, s.material, s.image, s.mech_strength, s.is_mech_plunger, s.auto_plunger, s.park_position, s.scatter_velocity, s.momentum_xfer, s.is_visible, s.is_reflection_enabled, s.surface, s.name, s.tip_shape, s.rod_diam, s.ring_gap, s.ring_diam, s.ring_width, s.spring_diam, s.spring_gauge, s.spring_loops, s.spring_end_loops, s.timer, Plunger.init.shared⟩
    (f32_rt.req trivial rfl) rfl ?_
  refine .segTo ⟨s.center, s.width, s.height, s.z_adjust, s.stroke, s.speed_pull, s.speed_fire, s.plunger_type, s.anim_frames, s.material, s.image, s.mech_strength, s.is_mech_plunger, s.auto_plunger, s.park_position, s.scatter_velocity, s.momentum_xfer, s.is_visible, s.is_reflection_enabled, s.surface, s.name, s.tip_shape, s.rod_diam, s.ring_gap, s.ring_diam, s.ring_width, s.spring_diam, s.spring_gauge, s.spring_loops, s.spring_end_loops, s.timer, s.shared⟩
    (shared_reads (L := Plunger.sharedL) ⟨fun _ _ => rfl, fun _ _ _ => rfl, fun _ => rfl⟩ h.shared rfl rfl rfl rfl rfl rfl) rfl ?_
  exact .done rfl

theorem Plunger.arms_inv : ArmsInv Plunger.WF Plunger.arms := by
  unfold Plunger.arms
  exact (.append (.append (.cons (.fld GP.any fun _ _ h _ => ⟨h.material, h.image, h.surface, h.name, h.tip_shape, h.shared⟩) <|
    .cons (.fld GP.any fun _ _ h _ => ⟨h.material, h.image, h.surface, h.name, h.tip_shape, h.shared⟩) <|
    .cons (.fld GP.any fun _ _ h _ => ⟨h.material, h.image, h.surface, h.name, h.tip_shape, h.shared⟩) <|
    .cons (.fld GP.any fun _ _ h _ => ⟨h.material, h.image, h.surface, h.name, h.tip_shape, h.shared⟩) <|
    .cons (.fld GP.any fun _ _ h _ => ⟨h.material, h.image, h.surface, h.name, h.tip_shape, h.shared⟩) <|
    .cons (.fld GP.any fun _ _ h _ => ⟨h.material, h.image, h.surface, h.name, h.tip_shape, h.shared⟩) <|
    .cons (.fld GP.any fun _ _ h _ => ⟨h.material, h.image, h.surface, h.name, h.tip_shape, h.shared⟩) <|
    .cons (.fld GP.any fun _ _ h _ => ⟨h.material, h.image, h.surface, h.name, h.tip_shape, h.shared⟩) <|
    .cons (.fld GP.any fun _ _ h _ => ⟨h.material, h.image, h.surface, h.name, h.tip_shape, h.shared⟩) <|
    .cons (.fld string_gp fun _ _ h hv => ⟨hv, h.image, h.surface, h.name, h.tip_shape, h.shared⟩) <|
    .cons (.fld string_gp fun _ _ h hv => ⟨h.material, hv, h.surface, h.name, h.tip_shape, h.shared⟩) <|
    .cons (.fld GP.any fun _ _ h _ => ⟨h.material, h.image, h.surface, h.name, h.tip_shape, h.shared⟩) <|
    .cons (.fld GP.any fun _ _ h _ => ⟨h.material, h.image, h.surface, h.name, h.tip_shape, h.shared⟩) <|
    .cons (.fld GP.any fun _ _ h _ => ⟨h.material, h.image, h.surface, h.name, h.tip_shape, h.shared⟩) <|
    .cons (.fld GP.any fun _ _ h _ => ⟨h.material, h.image, h.surface, h.name, h.tip_shape, h.shared⟩) <|
    .cons (.fld GP.any fun _ _ h _ => ⟨h.material, h.image, h.surface, h.name, h.tip_shape, h.shared⟩) <|
    .cons (.fld GP.any fun _ _ h _ => ⟨h.material, h.image, h.surface, h.name, h.tip_shape, h.shared⟩) <|
    .cons (.fld GP.any fun _ _ h _ => ⟨h.material, h.image, h.surface, h.name, h.tip_shape, h.shared⟩) <|
    .cons (.fld GP.any fun _ _ h _ => ⟨h.material, h.image, h.surface, h.name, h.tip_shape, h.shared⟩) <|
    .cons (.fld string_gp fun _ _ h hv => ⟨h.material, h.image, hv, h.name, h.tip_shape, h.shared⟩) <|
    .cons (.fld wide_gp fun _ _ h hv => ⟨h.material, h.image, h.surface, hv, h.tip_shape, h.shared⟩) <|
    .cons (.fld string_gp fun _ _ h hv => ⟨h.material, h.image, h.surface, h.name, hv, h.shared⟩) <|
    .cons (.fld GP.any fun _ _ h _ => ⟨h.material, h.image, h.surface, h.name, h.tip_shape, h.shared⟩) <|
    .cons (.fld GP.any fun _ _ h _ => ⟨h.material, h.image, h.surface, h.name, h.tip_shape, h.shared⟩) <|
    .cons (.fld GP.any fun _ _ h _ => ⟨h.material, h.image, h.surface, h.name, h.tip_shape, h.shared⟩) <|
    .cons (.fld GP.any fun _ _ h _ => ⟨h.material, h.image, h.surface, h.name, h.tip_shape, h.shared⟩) <|
    .cons (.fld GP.any fun _ _ h _ => ⟨h.material, h.image, h.surface, h.name, h.tip_shape, h.shared⟩) <|
    .cons (.fld GP.any fun _ _ h _ => ⟨h.material, h.image, h.surface, h.name, h.tip_shape, h.shared⟩) <|
    .cons (.fld GP.any fun _ _ h _ => ⟨h.material, h.image, h.surface, h.name, h.tip_shape, h.shared⟩) <|
    .cons (.fld GP.any fun _ _ h _ => ⟨h.material, h.image, h.surface, h.name, h.tip_shape, h.shared⟩) .nil)
    (timerArms_inv fun _ _ h => ⟨h.material, h.image, h.surface, h.name, h.tip_shape, h.shared⟩))
    (sharedArms_inv (fun _ h => h.shared) fun _ _ h ha => ⟨h.material, h.image, h.surface, h.name, h.tip_shape, ha⟩))

theorem Plunger.init_wf : Plunger.WF Plunger.init where
  material := by decide
  image := by decide
  surface := by decide
  name := by decide
  tip_shape := by decide
  shared := ⟨.none, .none⟩

theorem Plunger.arms_tame : ArmsTame Plunger.arms := by
  unfold Plunger.arms
  exact (.append (.append (.cons (fun _ => vertex2d_tame.fld) <|
    .cons (fun _ => f32_tame.fld) <|
    .cons (fun _ => f32_tame.fld) <|
    .cons (fun _ => f32_tame.fld) <|
    .cons (fun _ => f32_tame.fld) <|
    .cons (fun _ => f32_tame.fld) <|
    .cons (fun _ => f32_tame.fld) <|
    .cons (fun _ => enum_tame.fld) <|
    .cons (fun _ => u32_tame.fld) <|
    .cons (fun _ => string_tame.fld) <|
    .cons (fun _ => string_tame.fld) <|
    .cons (fun _ => f32_tame.fld) <|
    .cons (fun _ => bool_tame.fld) <|
    .cons (fun _ => bool_tame.fld) <|
    .cons (fun _ => f32_tame.fld) <|
    .cons (fun _ => f32_tame.fld) <|
    .cons (fun _ => f32_tame.fld) <|
    .cons (fun _ => bool_tame.fld) <|
    .cons (fun _ => bool_tame.fld) <|
    .cons (fun _ => string_tame.fld) <|
    .cons (fun _ => wide_tame.fld) <|
    .cons (fun _ => string_tame.fld) <|
    .cons (fun _ => f32_tame.fld) <|
    .cons (fun _ => f32_tame.fld) <|
    .cons (fun _ => f32_tame.fld) <|
    .cons (fun _ => f32_tame.fld) <|
    .cons (fun _ => f32_tame.fld) <|
    .cons (fun _ => f32_tame.fld) <|
    .cons (fun _ => f32_tame.fld) <|
    .cons (fun _ => f32_tame.fld) .nil) (timerArms_tame _)) (sharedArms_tame _))

end Vpin
