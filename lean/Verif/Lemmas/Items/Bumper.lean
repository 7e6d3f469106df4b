import Verif.Lemmas.Enums
import Verif.Lemmas.Tame
import Verif.Lemmas.ItemData
/-
`Bumper`: reading back what was written, and what the reader guarantees for every input.
Generated by tools/gen_items.py.
-/
namespace Vpin


theorem Bumper.reads {s : Bumper} (h : s.WF) : OReads Bumper.arms s.ops Bumper.init s := by
  unfold Bumper.ops
  refine .segTo ⟨Bumper.init.name, s.center, Bumper.init.radius, Bumper.init.threshold, Bumper.init.force, Bumper.init.scatter, Bumper.init.height_scale, Bumper.init.ring_speed, Bumper.init.orientation, Bumper.init.ring_drop_offset, Bumper.init.cap_material, Bumper.init.base_material, Bumper.init.socket_material, Bumper.init.ring_material, Bumper.init.surface, Bumper.init.is_cap_visible, Bumper.init.is_base_visible, Bumper.init.is_ring_visible, Bumper.init.is_socket_visible, Bumper.init.hit_event, Bumper.init.is_collidable, Bumper.init.is_reflection_enabled, Bumper.init.timer, Bumper.init.shared⟩
    (vertex2d_rt.req trivial rfl) rfl ?_
  refine .segTo ⟨Bumper.init.name, s.center, s.radius, Bumper.init.threshold, Bumper.init.force, Bumper.init.scatter, Bumper.init.height_scale, Bumper.init.ring_speed, Bumper.init.orientation, Bumper.init.ring_drop_offset, Bumper.init.cap_material, Bumper.init.base_material, Bumper.init.socket_material, Bumper.init.ring_material, Bumper.init.surface, Bumper.init.is_cap_visible, Bumper.init.is_base_visible, Bumper.init.is_ring_visible, Bumper.init.is_socket_visible, Bumper.init.hit_event, Bumper.init.is_collidable, Bumper.init.is_reflection_enabled, Bumper.init.timer, Bumper.init.shared⟩
    (f32_rt.req trivial rfl) rfl ?_
  refine .segTo ⟨Bumper.init.name, s.center, s.radius, Bumper.init.threshold, Bumper.init.force, Bumper.init.scatter, Bumper.init.height_scale, Bumper.init.ring_speed, Bumper.init.orientation, Bumper.init.ring_drop_offset, Bumper.init.cap_material, Bumper.init.base_material, Bumper.init.socket_material, Bumper.init.ring_material, Bumper.init.surface, Bumper.init.is_cap_visible, Bumper.init.is_base_visible, Bumper.init.is_ring_visible, Bumper.init.is_socket_visible, Bumper.init.hit_event, Bumper.init.is_collidable, Bumper.init.is_reflection_enabled, s.timer, Bumper.init.shared⟩
    (timer_reads (L := Bumper.timerL) ⟨fun _ _ => rfl, fun _ _ _ => rfl, fun _ => rfl⟩ rfl rfl) rfl ?_
  refine .segTo ⟨Bumper.init.name, s.center, s.radius, s.threshold, Bumper.init.force, Bumper.init.scatter, Bumper.init.height_scale, Bumper.init.ring_speed, Bumper.init.orientation, Bumper.init.ring_drop_offset, Bumper.init.cap_material, Bumper.init.base_material, Bumper.init.socket_material, Bumper.init.ring_material, Bumper.init.surface, Bumper.init.is_cap_visible, Bumper.init.is_base_visible, Bumper.init.is_ring_visible, Bumper.init.is_socket_visible, Bumper.init.hit_event, Bumper.init.is_collidable, Bumper.init.is_reflection_enabled, s.timer, Bumper.init.shared⟩
    (f32_rt.req trivial rfl) rfl ?_
  refine .segTo ⟨Bumper.init.name, s.center, s.radius, s.threshold, s.force, Bumper.init.scatter, Bumper.init.height_scale, Bumper.init.ring_speed, Bumper.init.orientation, Bumper.init.ring_drop_offset, Bumper.init.cap_material, Bumper.init.base_material, Bumper.init.socket_material, Bumper.init.ring_material, Bumper.init.surface, Bumper.init.is_cap_visible, Bumper.init.is_base_visible, Bumper.init.is_ring_visible, Bumper.init.is_socket_visible, Bumper.init.hit_event, Bumper.init.is_collidable, Bumper.init.is_reflection_enabled, s.timer, Bumper.init.shared⟩
    (f32_rt.req trivial rfl) rfl ?_
  refine .segTo ⟨Bumper.init.name, s.center, s.radius, s.threshold, s.force, s.scatter, Bumper.init.height_scale, Bumper.init.ring_speed, Bumper.init.orientation, Bumper.init.ring_drop_offset, Bumper.init.cap_material, Bumper.init.base_material, Bumper.init.socket_material, Bumper.init.ring_material, Bumper.init.surface, Bumper.init.is_cap_visible, Bumper.init.is_base_visible, Bumper.init.is_ring_visible, Bumper.init.is_socket_visible, Bumper.init.hit_event, Bumper.init.is_collidable, Bumper.init.is_reflection_enabled, s.timer, Bumper.init.shared⟩
    (f32_rt.opt (fun v (s : Bumper) => { s with scatter := v }) (fun _ _ => trivial) rfl rfl) rfl ?_
  refine .segTo ⟨Bumper.init.name, s.center, s.radius, s.threshold, s.force, s.scatter, s.height_scale, Bumper.init.ring_speed, Bumper.init.orientation, Bumper.init.ring_drop_offset, Bumper.init.cap_material, Bumper.init.base_material, Bumper.init.socket_material, Bumper.init.ring_material, Bumper.init.surface, Bumper.init.is_cap_visible, Bumper.init.is_base_visible, Bumper.init.is_ring_visible, Bumper.init.is_socket_visible, Bumper.init.hit_event, Bumper.init.is_collidable, Bumper.init.is_reflection_enabled, s.timer, Bumper.init.shared⟩
    (f32_rt.req trivial rfl) rfl ?_
  refine .segTo ⟨Bumper.init.name, s.center, s.radius, s.threshold, s.force, s.scatter, s.height_scale, s.ring_speed, Bumper.init.orientation, Bumper.init.ring_drop_offset, Bumper.init.cap_material, Bumper.init.base_material, Bumper.init.socket_material, Bumper.init.ring_material, Bumper.init.surface, Bumper.init.is_cap_visible, Bumper.init.is_base_visible, Bumper.init.is_ring_visible, Bumper.init.is_socket_visible, Bumper.init.hit_event, Bumper.init.is_collidable, Bumper.init.is_reflection_enabled, s.timer, Bumper.init.shared⟩
    (f32_rt.req trivial rfl) rfl ?_
  refine .segTo ⟨Bumper.init.name, s.center, s.radius, s.threshold, s.force, s.scatter, s.height_scale, s.ring_speed, s.orientation, Bumper.init.ring_drop_offset, Bumper.init.cap_material, Bumper.init.base_material, Bumper.init.socket_material, Bumper.init.ring_material, Bumper.init.surface, Bumper.init.is_cap_visible, Bumper.init.is_base_visible, Bumper.init.is_ring_visible, Bumper.init.is_socket_visible, Bumper.init.hit_event, Bumper.init.is_collidable, Bumper.init.is_reflection_enabled, s.timer, Bumper.init.shared⟩
    (f32_rt.req trivial rfl) rfl ?_
  refine .segTo ⟨Bumper.init.name, s.center, s.radius, s.threshold, s.force, s.scatter, s.height_scale, s.ring_speed, s.orientation, s.ring_drop_offset, Bumper.init.cap_material, Bumper.init.base_material, Bumper.init.socket_material, Bumper.init.ring_material, Bumper.init.surface, Bumper.init.is_cap_visible, Bumper.init.is_base_visible, Bumper.init.is_ring_visible, Bumper.init.is_socket_visible, Bumper.init.hit_event, Bumper.init.is_collidable, Bumper.init.is_reflection_enabled, s.timer, Bumper.init.shared⟩
    (f32_rt.opt (fun v (s : Bumper) => { s with ring_drop_offset := v }) (fun _ _ => trivial) rfl rfl) rfl ?_
  refine .segTo ⟨Bumper.init.name, s.center, s.radius, s.threshold, s.force, s.scatter, s.height_scale, s.ring_speed, s.orientation, s.ring_drop_offset, s.cap_material, Bumper.init.base_material, Bumper.init.socket_material, Bumper.init.ring_material, Bumper.init.surface, Bumper.init.is_cap_visible, Bumper.init.is_base_visible, Bumper.init.is_ring_visible, Bumper.init.is_socket_visible, Bumper.init.hit_event, Bumper.init.is_collidable, Bumper.init.is_reflection_enabled, s.timer, Bumper.init.shared⟩
    (string_rt.req h.cap_material rfl) rfl ?_
  refine .segTo ⟨Bumper.init.name, s.center, s.radius, s.threshold, s.force, s.scatter, s.height_scale, s.ring_speed, s.orientation, s.ring_drop_offset, s.cap_material, s.base_material, Bumper.init.socket_material, Bumper.init.ring_material, Bumper.init.surface, Bumper.init.is_cap_visible, Bumper.init.is_base_visible, Bumper.init.is_ring_visible, Bumper.init.is_socket_visible, Bumper.init.hit_event, Bumper.init.is_collidable, Bumper.init.is_reflection_enabled, s.timer, Bumper.init.shared⟩
    (string_rt.req h.base_material rfl) rfl ?_
  refine .segTo ⟨Bumper.init.name, s.center, s.radius, s.threshold, s.force, s.scatter, s.height_scale, s.ring_speed, s.orientation, s.ring_drop_offset, s.cap_material, s.base_material, s.socket_material, Bumper.init.ring_material, Bumper.init.surface, Bumper.init.is_cap_visible, Bumper.init.is_base_visible, Bumper.init.is_ring_visible, Bumper.init.is_socket_visible, Bumper.init.hit_event, Bumper.init.is_collidable, Bumper.init.is_reflection_enabled, s.timer, Bumper.init.shared⟩
    (string_rt.req h.socket_material rfl) rfl ?_
  refine .segTo ⟨Bumper.init.name, s.center, s.radius, s.threshold, s.force, s.scatter, s.height_scale, s.ring_speed, s.orientation, s.ring_drop_offset, s.cap_material, s.base_material, s.socket_material, s.ring_material, Bumper.init.surface, Bumper.init.is_cap_visible, Bumper.init.is_base_visible, Bumper.init.is_ring_visible, Bumper.init.is_socket_visible, Bumper.init.hit_event, Bumper.init.is_collidable, Bumper.init.is_reflection_enabled, s.timer, Bumper.init.shared⟩
    (string_rt.opt (fun v (s : Bumper) => { s with ring_material := v }) h.ring_material rfl rfl) rfl ?_
  refine .segTo ⟨Bumper.init.name, s.center, s.radius, s.threshold, s.force, s.scatter, s.height_scale, s.ring_speed, s.orientation, s.ring_drop_offset, s.cap_material, s.base_material, s.socket_material, s.ring_material, s.surface, Bumper.init.is_cap_visible, Bumper.init.is_base_visible, Bumper.init.is_ring_visible, Bumper.init.is_socket_visible, Bumper.init.hit_event, Bumper.init.is_collidable, Bumper.init.is_reflection_enabled, s.timer, Bumper.init.shared⟩
    (string_rt.req h.surface rfl) rfl ?_
  refine .segTo ⟨s.name, s.center, s.radius, s.threshold, s.force, s.scatter, s.height_scale, s.ring_speed, s.orientation, s.ring_drop_offset, s.cap_material, s.base_material, s.socket_material, s.ring_material, s.surface, Bumper.init.is_cap_visible, Bumper.init.is_base_visible, Bumper.init.is_ring_visible, Bumper.init.is_socket_visible, Bumper.init.hit_event, Bumper.init.is_collidable, Bumper.init.is_reflection_enabled, s.timer, Bumper.init.shared⟩
    (wide_rt.req h.name rfl) rfl ?_
  refine .segTo ⟨s.name, s.center, s.radius, s.threshold, s.force, s.scatter, s.height_scale, s.ring_speed, s.orientation, s.ring_drop_offset, s.cap_material, s.base_material, s.socket_material, s.ring_material, s.surface, s.is_cap_visible, Bumper.init.is_base_visible, Bumper.init.is_ring_visible, Bumper.init.is_socket_visible, Bumper.init.hit_event, Bumper.init.is_collidable, Bumper.init.is_reflection_enabled, s.timer, Bumper.init.shared⟩
    (bool_rt.req trivial rfl) rfl ?_
  refine .segTo ⟨s.name, s.center, s.radius, s.threshold, s.force, s.scatter, s.height_scale, s.ring_speed, s.orientation, s.ring_drop_offset, s.cap_material, s.base_material, s.socket_material, s.ring_material, s.surface, s.is_cap_visible, s.is_base_visible, Bumper.init.is_ring_visible, Bumper.init.is_socket_visible, Bumper.init.hit_event, Bumper.init.is_collidable, Bumper.init.is_reflection_enabled, s.timer, Bumper.init.shared⟩
    (bool_rt.req trivial rfl) rfl ?_
  refine .segTo ⟨s.name, s.center, s.radius, s.threshold, s.force, s.scatter, s.height_scale, s.ring_speed, s.orientation, s.ring_drop_offset, s.cap_material, s.base_material, s.socket_material, s.ring_material, s.surface, s.is_cap_visible, s.is_base_visible, s.is_ring_visible, Bumper.init.is_socket_visible, Bumper.init.hit_event, Bumper.init.is_collidable, Bumper.init.is_reflection_enabled, s.timer, Bumper.init.shared⟩
    (bool_rt.opt (fun v (s : Bumper) => { s with is_ring_visible := v }) (fun _ _ => trivial) rfl rfl) rfl ?_
  refine .segTo ⟨s.name, s.center, s.radius, s.threshold, s.force, s.scatter, s.height_scale, s.ring_speed, s.orientation, s.ring_drop_offset, s.cap_material, s.base_material, s.socket_material, s.ring_material, s.surface, s.is_cap_visible, s.is_base_visible, s.is_ring_visible, s.is_socket_visible, Bumper.init.hit_event, Bumper.init.is_collidable, Bumper.init.is_reflection_enabled, s.timer, Bumper.init.shared⟩
    (bool_rt.opt (fun v (s : Bumper) => { s with is_socket_visible := v }) (fun _ _ => trivial) rfl rfl) rfl ?_
  refine .segTo ⟨s.name, s.center, s.radius, s.threshold, s.force, s.scatter, s.height_scale, s.ring_speed, s.orientation, s.ring_drop_offset, s.cap_material, s.base_material, s.socket_material, s.ring_material, s.surface, s.is_cap_visible, s.is_base_visible, s.is_ring_visible, s.is_socket_visible, s.hit_event, Bumper.init.is_collidable, Bumper.init.is_reflection_enabled, s.timer, Bumper.init.shared⟩
    (bool_rt.opt (fun v (s : Bumper) => { s with hit_event := v }) (fun _ _ => trivial) rfl rfl) rfl ?_
  refine .segTo ⟨s.name, s.center, s.radius, s.threshold, s.force, s.scatter, s.height_scale, s.ring_speed, s.orientation, s.ring_drop_offset, s.cap_material, s.base_material, s.socket_material, s.ring_material, s.surface, s.is_cap_visible, s.is_base_visible, s.is_ring_visible, s.is_socket_visible, s.hit_event, s.is_collidable, Bumper.init.is_reflection_enabled, s.timer, Bumper.init.shared⟩
    (bool_rt.opt (fun v (s : Bumper) => { s with is_collidable := v }) (fun _ _ => trivial) rfl rfl) rfl ?_
  refine .segTo ⟨s.name, s.center, s.radius, s.threshold, s.force, s.scatter, s.height_scale, s.ring_speed, s.orientation, s.ring_drop_offset, s.cap_material, s.base_material, s.socket_material, s.ring_material, s.surface, s.is_cap_visible, s.is_base_visible, s.is_ring_visible, s.is_socket_visible, s.hit_event, s.is_collidable, s.is_reflection_enabled, s.timer, Bumper.init.shared⟩
    (bool_rt.opt (fun v (s : Bumper) => { s with is_reflection_enabled := v }) (fun _ _ => trivial) rfl rfl) rfl ?_
  refine .segTo ⟨s.name, s.center, s.radius, s.threshold, s.force, s.scatter, s.height_scale, s.ring_speed, s.orientation, s.ring_drop_offset, s.cap_material, s.base_material, s.socket_material, s.ring_material, s.surface, s.is_cap_visible, s.is_base_visible, s.is_ring_visible, s.is_socket_visible, s.hit_event, s.is_collidable, s.is_reflection_enabled, s.timer, s.shared⟩
    (shared_reads (L := Bumper.sharedL) ⟨fun _ _ => rfl, fun _ _ _ => rfl, fun _ => rfl⟩ h.shared rfl rfl rfl rfl rfl rfl) rfl ?_
  exact .done rfl

theorem Bumper.arms_inv : ArmsInv Bumper.WF Bumper.arms := by
  unfold Bumper.arms
  exact (.append (.append (.cons (.fld GP.any fun _ _ h _ => ⟨h.cap_material, h.base_material, h.socket_material, h.ring_material, h.surface, h.name, h.shared⟩) <|
    .cons (.fld GP.any fun _ _ h _ => ⟨h.cap_material, h.base_material, h.socket_material, h.ring_material, h.surface, h.name, h.shared⟩) <|
    .cons (.fld GP.any fun _ _ h _ => ⟨h.cap_material, h.base_material, h.socket_material, h.ring_material, h.surface, h.name, h.shared⟩) <|
    .cons (.fld GP.any fun _ _ h _ => ⟨h.cap_material, h.base_material, h.socket_material, h.ring_material, h.surface, h.name, h.shared⟩) <|
    .cons (.fld GP.any fun _ _ h _ => ⟨h.cap_material, h.base_material, h.socket_material, h.ring_material, h.surface, h.name, h.shared⟩) <|
    .cons (.fld GP.any fun _ _ h _ => ⟨h.cap_material, h.base_material, h.socket_material, h.ring_material, h.surface, h.name, h.shared⟩) <|
    .cons (.fld GP.any fun _ _ h _ => ⟨h.cap_material, h.base_material, h.socket_material, h.ring_material, h.surface, h.name, h.shared⟩) <|
    .cons (.fld GP.any fun _ _ h _ => ⟨h.cap_material, h.base_material, h.socket_material, h.ring_material, h.surface, h.name, h.shared⟩) <|
    .cons (.fld GP.any fun _ _ h _ => ⟨h.cap_material, h.base_material, h.socket_material, h.ring_material, h.surface, h.name, h.shared⟩) <|
    .cons (.fld string_gp fun _ _ h hv => ⟨hv, h.base_material, h.socket_material, h.ring_material, h.surface, h.name, h.shared⟩) <|
    .cons (.fld string_gp fun _ _ h hv => ⟨h.cap_material, hv, h.socket_material, h.ring_material, h.surface, h.name, h.shared⟩) <|
    .cons (.fld string_gp fun _ _ h hv => ⟨h.cap_material, h.base_material, hv, h.ring_material, h.surface, h.name, h.shared⟩) <|
    .cons (.fld string_gp fun _ _ h hv => ⟨h.cap_material, h.base_material, h.socket_material, .some hv, h.surface, h.name, h.shared⟩) <|
    .cons (.fld string_gp fun _ _ h hv => ⟨h.cap_material, h.base_material, h.socket_material, h.ring_material, hv, h.name, h.shared⟩) <|
    .cons (.fld wide_gp fun _ _ h hv => ⟨h.cap_material, h.base_material, h.socket_material, h.ring_material, h.surface, hv, h.shared⟩) <|
    .cons (.fld GP.any fun _ _ h _ => ⟨h.cap_material, h.base_material, h.socket_material, h.ring_material, h.surface, h.name, h.shared⟩) <|
    .cons (.fld GP.any fun _ _ h _ => ⟨h.cap_material, h.base_material, h.socket_material, h.ring_material, h.surface, h.name, h.shared⟩) <|
    .cons (.fld GP.any fun _ _ h _ => ⟨h.cap_material, h.base_material, h.socket_material, h.ring_material, h.surface, h.name, h.shared⟩) <|
    .cons (.fld GP.any fun _ _ h _ => ⟨h.cap_material, h.base_material, h.socket_material, h.ring_material, h.surface, h.name, h.shared⟩) <|
    .cons (.fld GP.any fun _ _ h _ => ⟨h.cap_material, h.base_material, h.socket_material, h.ring_material, h.surface, h.name, h.shared⟩) <|
    .cons (.fld GP.any fun _ _ h _ => ⟨h.cap_material, h.base_material, h.socket_material, h.ring_material, h.surface, h.name, h.shared⟩) <|
    .cons (.fld GP.any fun _ _ h _ => ⟨h.cap_material, h.base_material, h.socket_material, h.ring_material, h.surface, h.name, h.shared⟩) .nil)
    (timerArms_inv fun _ _ h => ⟨h.cap_material, h.base_material, h.socket_material, h.ring_material, h.surface, h.name, h.shared⟩))
    (sharedArms_inv (fun _ h => h.shared) fun _ _ h ha => ⟨h.cap_material, h.base_material, h.socket_material, h.ring_material, h.surface, h.name, ha⟩))

theorem Bumper.init_wf : Bumper.WF Bumper.init where
  cap_material := by decide
  base_material := by decide
  socket_material := by decide
  ring_material := .none
  surface := by decide
  name := by decide
  shared := ⟨.none, .none⟩

theorem Bumper.arms_tame : ArmsTame Bumper.arms := by
  unfold Bumper.arms
  exact (.append (.append (.cons (fun _ => vertex2d_tame.fld) <|
    .cons (fun _ => f32_tame.fld) <|
    .cons (fun _ => f32_tame.fld) <|
    .cons (fun _ => f32_tame.fld) <|
    .cons (fun _ => f32_tame.fld) <|
    .cons (fun _ => f32_tame.fld) <|
    .cons (fun _ => f32_tame.fld) <|
    .cons (fun _ => f32_tame.fld) <|
    .cons (fun _ => f32_tame.fld) <|
    .cons (fun _ => string_tame.fld) <|
    .cons (fun _ => string_tame.fld) <|
    .cons (fun _ => string_tame.fld) <|
    .cons (fun _ => string_tame.fld) <|
    .cons (fun _ => string_tame.fld) <|
    .cons (fun _ => wide_tame.fld) <|
    .cons (fun _ => bool_tame.fld) <|
    .cons (fun _ => bool_tame.fld) <|
    .cons (fun _ => bool_tame.fld) <|
    .cons (fun _ => bool_tame.fld) <|
    .cons (fun _ => bool_tame.fld) <|
    .cons (fun _ => bool_tame.fld) <|
    .cons (fun _ => bool_tame.fld) .nil) (timerArms_tame _)) (sharedArms_tame _))

end Vpin
