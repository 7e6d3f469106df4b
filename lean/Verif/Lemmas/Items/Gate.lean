import Verif.Lemmas.Enums
import Verif.Lemmas.Tame
import Verif.Lemmas.ItemData
/-
`Gate`: reading back what was written, and what the reader guarantees for every input.
Generated by tools/gen_items.py.
-/
namespace Vpin


theorem Gate.reads {s : Gate} (h : s.WF) : OReads Gate.arms s.ops Gate.init s := by
  unfold Gate.ops
  refine .segTo ⟨Gate.init.name, s.center, Gate.init.length, Gate.init.height, Gate.init.rotation, Gate.init.material, Gate.init.show_bracket, Gate.init.is_collidable, Gate.init.imgf, Gate.init.imgb, Gate.init.surface, Gate.init.elasticity, Gate.init.angle_max, Gate.init.angle_min, Gate.init.friction, Gate.init.damping, Gate.init.gravity_factor, Gate.init.is_visible, Gate.init.two_way, Gate.init.is_reflection_enabled, Gate.init.gate_type, Gate.init.timer, Gate.init.shared⟩
    (vertex2d_rt.req trivial rfl) rfl ?_
  refine .segTo ⟨Gate.init.name, s.center, s.length, Gate.init.height, Gate.init.rotation, Gate.init.material, Gate.init.show_bracket, Gate.init.is_collidable, Gate.init.imgf, Gate.init.imgb, Gate.init.surface, Gate.init.elasticity, Gate.init.angle_max, Gate.init.angle_min, Gate.init.friction, Gate.init.damping, Gate.init.gravity_factor, Gate.init.is_visible, Gate.init.two_way, Gate.init.is_reflection_enabled, Gate.init.gate_type, Gate.init.timer, Gate.init.shared⟩
    (f32_rt.req trivial rfl) rfl ?_
  refine .segTo ⟨Gate.init.name, s.center, s.length, s.height, Gate.init.rotation, Gate.init.material, Gate.init.show_bracket, Gate.init.is_collidable, Gate.init.imgf, Gate.init.imgb, Gate.init.surface, Gate.init.elasticity, Gate.init.angle_max, Gate.init.angle_min, Gate.init.friction, Gate.init.damping, Gate.init.gravity_factor, Gate.init.is_visible, Gate.init.two_way, Gate.init.is_reflection_enabled, Gate.init.gate_type, Gate.init.timer, Gate.init.shared⟩
    (f32_rt.req trivial rfl) rfl ?_
  refine .segTo ⟨Gate.init.name, s.center, s.length, s.height, s.rotation, Gate.init.material, Gate.init.show_bracket, Gate.init.is_collidable, Gate.init.imgf, Gate.init.imgb, Gate.init.surface, Gate.init.elasticity, Gate.init.angle_max, Gate.init.angle_min, Gate.init.friction, Gate.init.damping, Gate.init.gravity_factor, Gate.init.is_visible, Gate.init.two_way, Gate.init.is_reflection_enabled, Gate.init.gate_type, Gate.init.timer, Gate.init.shared⟩
    (f32_rt.req trivial rfl) rfl ?_
  refine .segTo ⟨Gate.init.name, s.center, s.length, s.height, s.rotation, s.material, Gate.init.show_bracket, Gate.init.is_collidable, Gate.init.imgf, Gate.init.imgb, Gate.init.surface, Gate.init.elasticity, Gate.init.angle_max, Gate.init.angle_min, Gate.init.friction, Gate.init.damping, Gate.init.gravity_factor, Gate.init.is_visible, Gate.init.two_way, Gate.init.is_reflection_enabled, Gate.init.gate_type, Gate.init.timer, Gate.init.shared⟩
    (string_rt.req h.material rfl) rfl ?_
  refine .segTo ⟨Gate.init.name, s.center, s.length, s.height, s.rotation, s.material, Gate.init.show_bracket, Gate.init.is_collidable, Gate.init.imgf, Gate.init.imgb, Gate.init.surface, Gate.init.elasticity, Gate.init.angle_max, Gate.init.angle_min, Gate.init.friction, Gate.init.damping, Gate.init.gravity_factor, Gate.init.is_visible, Gate.init.two_way, Gate.init.is_reflection_enabled, Gate.init.gate_type, ⟨s.timer.is_enabled, Gate.init.timer.interval⟩, Gate.init.shared⟩
    (tmon_reads (L := Gate.timerL) rfl) rfl ?_
  refine .segTo ⟨Gate.init.name, s.center, s.length, s.height, s.rotation, s.material, s.show_bracket, Gate.init.is_collidable, Gate.init.imgf, Gate.init.imgb, Gate.init.surface, Gate.init.elasticity, Gate.init.angle_max, Gate.init.angle_min, Gate.init.friction, Gate.init.damping, Gate.init.gravity_factor, Gate.init.is_visible, Gate.init.two_way, Gate.init.is_reflection_enabled, Gate.init.gate_type, ⟨s.timer.is_enabled, Gate.init.timer.interval⟩, Gate.init.shared⟩
    (bool_rt.req trivial rfl) rfl ?_
  refine .segTo ⟨Gate.init.name, s.center, s.length, s.height, s.rotation, s.material, s.show_bracket, s.is_collidable, Gate.init.imgf, Gate.init.imgb, Gate.init.surface, Gate.init.elasticity, Gate.init.angle_max, Gate.init.angle_min, Gate.init.friction, Gate.init.damping, Gate.init.gravity_factor, Gate.init.is_visible, Gate.init.two_way, Gate.init.is_reflection_enabled, Gate.init.gate_type, ⟨s.timer.is_enabled, Gate.init.timer.interval⟩, Gate.init.shared⟩
    (bool_rt.req trivial rfl) rfl ?_
  refine .segTo ⟨Gate.init.name, s.center, s.length, s.height, s.rotation, s.material, s.show_bracket, s.is_collidable, Gate.init.imgf, Gate.init.imgb, Gate.init.surface, Gate.init.elasticity, Gate.init.angle_max, Gate.init.angle_min, Gate.init.friction, Gate.init.damping, Gate.init.gravity_factor, Gate.init.is_visible, Gate.init.two_way, Gate.init.is_reflection_enabled, Gate.init.gate_type, s.timer, Gate.init.shared⟩
    (tmin_reads (L := Gate.timerL) rfl) rfl ?_
  refine .segTo ⟨Gate.init.name, s.center, s.length, s.height, s.rotation, s.material, s.show_bracket, s.is_collidable, s.imgf, Gate.init.imgb, Gate.init.surface, Gate.init.elasticity, Gate.init.angle_max, Gate.init.angle_min, Gate.init.friction, Gate.init.damping, Gate.init.gravity_factor, Gate.init.is_visible, Gate.init.two_way, Gate.init.is_reflection_enabled, Gate.init.gate_type, s.timer, Gate.init.shared⟩
    (string_rt.opt (fun v (s : Gate) => { s with imgf := v }) h.imgf rfl rfl) rfl ?_
  refine .segTo ⟨Gate.init.name, s.center, s.length, s.height, s.rotation, s.material, s.show_bracket, s.is_collidable, s.imgf, s.imgb, Gate.init.surface, Gate.init.elasticity, Gate.init.angle_max, Gate.init.angle_min, Gate.init.friction, Gate.init.damping, Gate.init.gravity_factor, Gate.init.is_visible, Gate.init.two_way, Gate.init.is_reflection_enabled, Gate.init.gate_type, s.timer, Gate.init.shared⟩
    (string_rt.opt (fun v (s : Gate) => { s with imgb := v }) h.imgb rfl rfl) rfl ?_
  refine .segTo ⟨Gate.init.name, s.center, s.length, s.height, s.rotation, s.material, s.show_bracket, s.is_collidable, s.imgf, s.imgb, s.surface, Gate.init.elasticity, Gate.init.angle_max, Gate.init.angle_min, Gate.init.friction, Gate.init.damping, Gate.init.gravity_factor, Gate.init.is_visible, Gate.init.two_way, Gate.init.is_reflection_enabled, Gate.init.gate_type, s.timer, Gate.init.shared⟩
    (string_rt.req h.surface rfl) rfl ?_
  refine .segTo ⟨Gate.init.name, s.center, s.length, s.height, s.rotation, s.material, s.show_bracket, s.is_collidable, s.imgf, s.imgb, s.surface, s.elasticity, Gate.init.angle_max, Gate.init.angle_min, Gate.init.friction, Gate.init.damping, Gate.init.gravity_factor, Gate.init.is_visible, Gate.init.two_way, Gate.init.is_reflection_enabled, Gate.init.gate_type, s.timer, Gate.init.shared⟩
    (f32_rt.req trivial rfl) rfl ?_
  refine .segTo ⟨Gate.init.name, s.center, s.length, s.height, s.rotation, s.material, s.show_bracket, s.is_collidable, s.imgf, s.imgb, s.surface, s.elasticity, s.angle_max, Gate.init.angle_min, Gate.init.friction, Gate.init.damping, Gate.init.gravity_factor, Gate.init.is_visible, Gate.init.two_way, Gate.init.is_reflection_enabled, Gate.init.gate_type, s.timer, Gate.init.shared⟩
    (f32_rt.req trivial rfl) rfl ?_
  refine .segTo ⟨Gate.init.name, s.center, s.length, s.height, s.rotation, s.material, s.show_bracket, s.is_collidable, s.imgf, s.imgb, s.surface, s.elasticity, s.angle_max, s.angle_min, Gate.init.friction, Gate.init.damping, Gate.init.gravity_factor, Gate.init.is_visible, Gate.init.two_way, Gate.init.is_reflection_enabled, Gate.init.gate_type, s.timer, Gate.init.shared⟩
    (f32_rt.req trivial rfl) rfl ?_
  refine .segTo ⟨Gate.init.name, s.center, s.length, s.height, s.rotation, s.material, s.show_bracket, s.is_collidable, s.imgf, s.imgb, s.surface, s.elasticity, s.angle_max, s.angle_min, s.friction, Gate.init.damping, Gate.init.gravity_factor, Gate.init.is_visible, Gate.init.two_way, Gate.init.is_reflection_enabled, Gate.init.gate_type, s.timer, Gate.init.shared⟩
    (f32_rt.req trivial rfl) rfl ?_
  refine .segTo ⟨Gate.init.name, s.center, s.length, s.height, s.rotation, s.material, s.show_bracket, s.is_collidable, s.imgf, s.imgb, s.surface, s.elasticity, s.angle_max, s.angle_min, s.friction, s.damping, Gate.init.gravity_factor, Gate.init.is_visible, Gate.init.two_way, Gate.init.is_reflection_enabled, Gate.init.gate_type, s.timer, Gate.init.shared⟩
    (f32_rt.opt (fun v (s : Gate) => { s with damping := v }) (fun _ _ => trivial) rfl rfl) rfl ?_
  refine .segTo ⟨Gate.init.name, s.center, s.length, s.height, s.rotation, s.material, s.show_bracket, s.is_collidable, s.imgf, s.imgb, s.surface, s.elasticity, s.angle_max, s.angle_min, s.friction, s.damping, s.gravity_factor, Gate.init.is_visible, Gate.init.two_way, Gate.init.is_reflection_enabled, Gate.init.gate_type, s.timer, Gate.init.shared⟩
    (f32_rt.opt (fun v (s : Gate) => { s with gravity_factor := v }) (fun _ _ => trivial) rfl rfl) rfl ?_
  refine .segTo ⟨Gate.init.name, s.center, s.length, s.height, s.rotation, s.material, s.show_bracket, s.is_collidable, s.imgf, s.imgb, s.surface, s.elasticity, s.angle_max, s.angle_min, s.friction, s.damping, s.gravity_factor, s.is_visible, Gate.init.two_way, Gate.init.is_reflection_enabled, Gate.init.gate_type, s.timer, Gate.init.shared⟩
    (bool_rt.req trivial rfl) rfl ?_
  refine .segTo ⟨s.name, s.center, s.length, s.height, s.rotation, s.material, s.show_bracket, s.is_collidable, s.imgf, s.imgb, s.surface, s.elasticity, s.angle_max, s.angle_min, s.friction, s.damping, s.gravity_factor, s.is_visible, Gate.init.two_way, Gate.init.is_reflection_enabled, Gate.init.gate_type, s.timer, Gate.init.shared⟩
    (wide_rt.req h.name rfl) rfl ?_
  refine .segTo ⟨s.name, s.center, s.length, s.height, s.rotation, s.material, s.show_bracket, s.is_collidable, s.imgf, s.imgb, s.surface, s.elasticity, s.angle_max, s.angle_min, s.friction, s.damping, s.gravity_factor, s.is_visible, s.two_way, Gate.init.is_reflection_enabled, Gate.init.gate_type, s.timer, Gate.init.shared⟩
    (bool_rt.req trivial rfl) rfl ?_
  refine .segTo ⟨s.name, s.center, s.length, s.height, s.rotation, s.material, s.show_bracket, s.is_collidable, s.imgf, s.imgb, s.surface, s.elasticity, s.angle_max, s.angle_min, s.friction, s.damping, s.gravity_factor, s.is_visible, s.two_way, s.is_reflection_enabled, Gate.init.gate_type, s.timer, Gate.init.shared⟩
    (bool_rt.opt (fun v (s : Gate) => { s with is_reflection_enabled := v }) (fun _ _ => trivial) rfl rfl) rfl ?_
  refine .segTo ⟨s.name, s.center, s.length, s.height, s.rotation, s.material, s.show_bracket, s.is_collidable, s.imgf, s.imgb, s.surface, s.elasticity, s.angle_max, s.angle_min, s.friction, s.damping, s.gravity_factor, s.is_visible, s.two_way, s.is_reflection_enabled, s.gate_type, s.timer, Gate.init.shared⟩
    (GateType.rt.opt (fun v (s : Gate) => { s with gate_type := v }) h.gate_type rfl rfl) rfl ?_
  refine .segTo ⟨s.name, s.center, s.length, s.height, s.rotation, s.material, s.show_bracket, s.is_collidable, s.imgf, s.imgb, s.surface, s.elasticity, s.angle_max, s.angle_min, s.friction, s.damping, s.gravity_factor, s.is_visible, s.two_way, s.is_reflection_enabled, s.gate_type, s.timer, s.shared⟩
    (shared_reads (L := Gate.sharedL) ⟨fun _ _ => rfl, fun _ _ _ => rfl, fun _ => rfl⟩ h.shared rfl rfl rfl rfl rfl rfl) rfl ?_
  exact .done rfl

theorem Gate.arms_inv : ArmsInv Gate.WF Gate.arms := by
  unfold Gate.arms
  exact (.append (.append (.cons (.fld GP.any fun _ _ h _ => ⟨h.material, h.imgf, h.imgb, h.surface, h.name, h.gate_type, h.shared⟩) <|
    .cons (.fld GP.any fun _ _ h _ => ⟨h.material, h.imgf, h.imgb, h.surface, h.name, h.gate_type, h.shared⟩) <|
    .cons (.fld GP.any fun _ _ h _ => ⟨h.material, h.imgf, h.imgb, h.surface, h.name, h.gate_type, h.shared⟩) <|
    .cons (.fld GP.any fun _ _ h _ => ⟨h.material, h.imgf, h.imgb, h.surface, h.name, h.gate_type, h.shared⟩) <|
    .cons (.fld string_gp fun _ _ h hv => ⟨hv, h.imgf, h.imgb, h.surface, h.name, h.gate_type, h.shared⟩) <|
    .cons (.fld GP.any fun _ _ h _ => ⟨h.material, h.imgf, h.imgb, h.surface, h.name, h.gate_type, h.shared⟩) <|
    .cons (.fld GP.any fun _ _ h _ => ⟨h.material, h.imgf, h.imgb, h.surface, h.name, h.gate_type, h.shared⟩) <|
    .cons (.fld string_gp fun _ _ h hv => ⟨h.material, .some hv, h.imgb, h.surface, h.name, h.gate_type, h.shared⟩) <|
    .cons (.fld string_gp fun _ _ h hv => ⟨h.material, h.imgf, .some hv, h.surface, h.name, h.gate_type, h.shared⟩) <|
    .cons (.fld string_gp fun _ _ h hv => ⟨h.material, h.imgf, h.imgb, hv, h.name, h.gate_type, h.shared⟩) <|
    .cons (.fld GP.any fun _ _ h _ => ⟨h.material, h.imgf, h.imgb, h.surface, h.name, h.gate_type, h.shared⟩) <|
    .cons (.fld GP.any fun _ _ h _ => ⟨h.material, h.imgf, h.imgb, h.surface, h.name, h.gate_type, h.shared⟩) <|
    .cons (.fld GP.any fun _ _ h _ => ⟨h.material, h.imgf, h.imgb, h.surface, h.name, h.gate_type, h.shared⟩) <|
    .cons (.fld GP.any fun _ _ h _ => ⟨h.material, h.imgf, h.imgb, h.surface, h.name, h.gate_type, h.shared⟩) <|
    .cons (.fld GP.any fun _ _ h _ => ⟨h.material, h.imgf, h.imgb, h.surface, h.name, h.gate_type, h.shared⟩) <|
    .cons (.fld GP.any fun _ _ h _ => ⟨h.material, h.imgf, h.imgb, h.surface, h.name, h.gate_type, h.shared⟩) <|
    .cons (.fld GP.any fun _ _ h _ => ⟨h.material, h.imgf, h.imgb, h.surface, h.name, h.gate_type, h.shared⟩) <|
    .cons (.fld wide_gp fun _ _ h hv => ⟨h.material, h.imgf, h.imgb, h.surface, hv, h.gate_type, h.shared⟩) <|
    .cons (.fld GP.any fun _ _ h _ => ⟨h.material, h.imgf, h.imgb, h.surface, h.name, h.gate_type, h.shared⟩) <|
    .cons (.fld GP.any fun _ _ h _ => ⟨h.material, h.imgf, h.imgb, h.surface, h.name, h.gate_type, h.shared⟩) <|
    .cons (.fld GateType.gp fun _ _ h hv => ⟨h.material, h.imgf, h.imgb, h.surface, h.name, .some hv, h.shared⟩) .nil)
    (timerArms_inv fun _ _ h => ⟨h.material, h.imgf, h.imgb, h.surface, h.name, h.gate_type, h.shared⟩))
    (sharedArms_inv (fun _ h => h.shared) fun _ _ h ha => ⟨h.material, h.imgf, h.imgb, h.surface, h.name, h.gate_type, ha⟩))

theorem Gate.init_wf : Gate.WF Gate.init where
  material := by decide
  imgf := .none
  imgb := .none
  surface := by decide
  name := by decide
  gate_type := .none
  shared := ⟨.none, .none⟩

theorem Gate.arms_tame : ArmsTame Gate.arms := by
  unfold Gate.arms
  exact (.append (.append (.cons (fun _ => vertex2d_tame.fld) <|
    .cons (fun _ => f32_tame.fld) <|
    .cons (fun _ => f32_tame.fld) <|
    .cons (fun _ => f32_tame.fld) <|
    .cons (fun _ => string_tame.fld) <|
    .cons (fun _ => bool_tame.fld) <|
    .cons (fun _ => bool_tame.fld) <|
    .cons (fun _ => string_tame.fld) <|
    .cons (fun _ => string_tame.fld) <|
    .cons (fun _ => string_tame.fld) <|
    .cons (fun _ => f32_tame.fld) <|
    .cons (fun _ => f32_tame.fld) <|
    .cons (fun _ => f32_tame.fld) <|
    .cons (fun _ => f32_tame.fld) <|
    .cons (fun _ => f32_tame.fld) <|
    .cons (fun _ => f32_tame.fld) <|
    .cons (fun _ => bool_tame.fld) <|
    .cons (fun _ => wide_tame.fld) <|
    .cons (fun _ => bool_tame.fld) <|
    .cons (fun _ => bool_tame.fld) <|
    .cons (fun _ => enum_tame.fld) .nil) (timerArms_tame _)) (sharedArms_tame _))

end Vpin
