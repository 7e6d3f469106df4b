import Verif.Lemmas.Enums
import Verif.Lemmas.Tame
import Verif.Lemmas.ItemData
/-
`Spinner`: reading back what was written, and what the reader guarantees for every input.
Generated by tools/gen_items.py.
-/
namespace Vpin


theorem Spinner.reads {s : Spinner} (h : s.WF) : OReads Spinner.arms s.ops Spinner.init s := by
  unfold Spinner.ops
  refine .segTo ⟨Spinner.init.name, s.center, Spinner.init.rotation, Spinner.init.height, Spinner.init.length, Spinner.init.damping, Spinner.init.angle_max, Spinner.init.angle_min, Spinner.init.elasticity, Spinner.init.is_visible, Spinner.init.show_bracket, Spinner.init.material, Spinner.init.image, Spinner.init.surface, Spinner.init.is_reflection_enabled, Spinner.init.timer, Spinner.init.shared⟩
    (vertex2d_rt.req trivial rfl) rfl ?_
  refine .segTo ⟨Spinner.init.name, s.center, s.rotation, Spinner.init.height, Spinner.init.length, Spinner.init.damping, Spinner.init.angle_max, Spinner.init.angle_min, Spinner.init.elasticity, Spinner.init.is_visible, Spinner.init.show_bracket, Spinner.init.material, Spinner.init.image, Spinner.init.surface, Spinner.init.is_reflection_enabled, Spinner.init.timer, Spinner.init.shared⟩
    (f32_rt.req trivial rfl) rfl ?_
  refine .segTo ⟨Spinner.init.name, s.center, s.rotation, Spinner.init.height, Spinner.init.length, Spinner.init.damping, Spinner.init.angle_max, Spinner.init.angle_min, Spinner.init.elasticity, Spinner.init.is_visible, Spinner.init.show_bracket, Spinner.init.material, Spinner.init.image, Spinner.init.surface, Spinner.init.is_reflection_enabled, s.timer, Spinner.init.shared⟩
    (timer_reads (L := Spinner.timerL) ⟨fun _ _ => rfl, fun _ _ _ => rfl, fun _ => rfl⟩ rfl rfl) rfl ?_
  refine .segTo ⟨Spinner.init.name, s.center, s.rotation, s.height, Spinner.init.length, Spinner.init.damping, Spinner.init.angle_max, Spinner.init.angle_min, Spinner.init.elasticity, Spinner.init.is_visible, Spinner.init.show_bracket, Spinner.init.material, Spinner.init.image, Spinner.init.surface, Spinner.init.is_reflection_enabled, s.timer, Spinner.init.shared⟩
    (f32_rt.req trivial rfl) rfl ?_
  refine .segTo ⟨Spinner.init.name, s.center, s.rotation, s.height, s.length, Spinner.init.damping, Spinner.init.angle_max, Spinner.init.angle_min, Spinner.init.elasticity, Spinner.init.is_visible, Spinner.init.show_bracket, Spinner.init.material, Spinner.init.image, Spinner.init.surface, Spinner.init.is_reflection_enabled, s.timer, Spinner.init.shared⟩
    (f32_rt.req trivial rfl) rfl ?_
  refine .segTo ⟨Spinner.init.name, s.center, s.rotation, s.height, s.length, s.damping, Spinner.init.angle_max, Spinner.init.angle_min, Spinner.init.elasticity, Spinner.init.is_visible, Spinner.init.show_bracket, Spinner.init.material, Spinner.init.image, Spinner.init.surface, Spinner.init.is_reflection_enabled, s.timer, Spinner.init.shared⟩
    (f32_rt.req trivial rfl) rfl ?_
  refine .segTo ⟨Spinner.init.name, s.center, s.rotation, s.height, s.length, s.damping, s.angle_max, Spinner.init.angle_min, Spinner.init.elasticity, Spinner.init.is_visible, Spinner.init.show_bracket, Spinner.init.material, Spinner.init.image, Spinner.init.surface, Spinner.init.is_reflection_enabled, s.timer, Spinner.init.shared⟩
    (f32_rt.req trivial rfl) rfl ?_
  refine .segTo ⟨Spinner.init.name, s.center, s.rotation, s.height, s.length, s.damping, s.angle_max, s.angle_min, Spinner.init.elasticity, Spinner.init.is_visible, Spinner.init.show_bracket, Spinner.init.material, Spinner.init.image, Spinner.init.surface, Spinner.init.is_reflection_enabled, s.timer, Spinner.init.shared⟩
    (f32_rt.req trivial rfl) rfl ?_
  refine .segTo ⟨Spinner.init.name, s.center, s.rotation, s.height, s.length, s.damping, s.angle_max, s.angle_min, s.elasticity, Spinner.init.is_visible, Spinner.init.show_bracket, Spinner.init.material, Spinner.init.image, Spinner.init.surface, Spinner.init.is_reflection_enabled, s.timer, Spinner.init.shared⟩
    (f32_rt.req trivial rfl) rfl ?_
  refine .segTo ⟨Spinner.init.name, s.center, s.rotation, s.height, s.length, s.damping, s.angle_max, s.angle_min, s.elasticity, s.is_visible, Spinner.init.show_bracket, Spinner.init.material, Spinner.init.image, Spinner.init.surface, Spinner.init.is_reflection_enabled, s.timer, Spinner.init.shared⟩
    (bool_rt.req trivial rfl) rfl ?_
  refine .segTo ⟨Spinner.init.name, s.center, s.rotation, s.height, s.length, s.damping, s.angle_max, s.angle_min, s.elasticity, s.is_visible, s.show_bracket, Spinner.init.material, Spinner.init.image, Spinner.init.surface, Spinner.init.is_reflection_enabled, s.timer, Spinner.init.shared⟩
    (bool_rt.req trivial rfl) rfl ?_
  refine .segTo ⟨Spinner.init.name, s.center, s.rotation, s.height, s.length, s.damping, s.angle_max, s.angle_min, s.elasticity, s.is_visible, s.show_bracket, s.material, Spinner.init.image, Spinner.init.surface, Spinner.init.is_reflection_enabled, s.timer, Spinner.init.shared⟩
    (string_rt.req h.material rfl) rfl ?_
  refine .segTo ⟨Spinner.init.name, s.center, s.rotation, s.height, s.length, s.damping, s.angle_max, s.angle_min, s.elasticity, s.is_visible, s.show_bracket, s.material, s.image, Spinner.init.surface, Spinner.init.is_reflection_enabled, s.timer, Spinner.init.shared⟩
    (string_rt.req h.image rfl) rfl ?_
  refine .segTo ⟨Spinner.init.name, s.center, s.rotation, s.height, s.length, s.damping, s.angle_max, s.angle_min, s.elasticity, s.is_visible, s.show_bracket, s.material, s.image, s.surface, Spinner.init.is_reflection_enabled, s.timer, Spinner.init.shared⟩
    (string_rt.req h.surface rfl) rfl ?_
  refine .segTo ⟨s.name, s.center, s.rotation, s.height, s.length, s.damping, s.angle_max, s.angle_min, s.elasticity, s.is_visible, s.show_bracket, s.material, s.image, s.surface, Spinner.init.is_reflection_enabled, s.timer, Spinner.init.shared⟩
    (wide_rt.req h.name rfl) rfl ?_
  refine .segTo ⟨s.name, s.center, s.rotation, s.height, s.length, s.damping, s.angle_max, s.angle_min, s.elasticity, s.is_visible, s.show_bracket, s.material, s.image, s.surface, s.is_reflection_enabled, s.timer, Spinner.init.shared⟩
    (bool_rt.opt (fun v (s : Spinner) => { s with is_reflection_enabled := v }) (fun _ _ => trivial) rfl rfl) rfl ?_
  refine .segTo ⟨s.name, s.center, s.rotation, s.height, s.length, s.damping, s.angle_max, s.angle_min, s.elasticity, s.is_visible, s.show_bracket, s.material, s.image, s.surface, s.is_reflection_enabled, s.timer, s.shared⟩
    (shared_reads (L := Spinner.sharedL) ⟨fun _ _ => rfl, fun _ _ _ => rfl, fun _ => rfl⟩ h.shared rfl rfl rfl rfl rfl rfl) rfl ?_
  exact .done rfl

theorem Spinner.arms_inv : ArmsInv Spinner.WF Spinner.arms := by
  unfold Spinner.arms
  exact (.append (.append (.cons (.fld GP.any fun _ _ h _ => ⟨h.material, h.image, h.surface, h.name, h.shared⟩) <|
    .cons (.fld GP.any fun _ _ h _ => ⟨h.material, h.image, h.surface, h.name, h.shared⟩) <|
    .cons (.fld GP.any fun _ _ h _ => ⟨h.material, h.image, h.surface, h.name, h.shared⟩) <|
    .cons (.fld GP.any fun _ _ h _ => ⟨h.material, h.image, h.surface, h.name, h.shared⟩) <|
    .cons (.fld GP.any fun _ _ h _ => ⟨h.material, h.image, h.surface, h.name, h.shared⟩) <|
    .cons (.fld GP.any fun _ _ h _ => ⟨h.material, h.image, h.surface, h.name, h.shared⟩) <|
    .cons (.fld GP.any fun _ _ h _ => ⟨h.material, h.image, h.surface, h.name, h.shared⟩) <|
    .cons (.fld GP.any fun _ _ h _ => ⟨h.material, h.image, h.surface, h.name, h.shared⟩) <|
    .cons (.fld GP.any fun _ _ h _ => ⟨h.material, h.image, h.surface, h.name, h.shared⟩) <|
    .cons (.fld GP.any fun _ _ h _ => ⟨h.material, h.image, h.surface, h.name, h.shared⟩) <|
    .cons (.fld string_gp fun _ _ h hv => ⟨hv, h.image, h.surface, h.name, h.shared⟩) <|
    .cons (.fld string_gp fun _ _ h hv => ⟨h.material, hv, h.surface, h.name, h.shared⟩) <|
    .cons (.fld string_gp fun _ _ h hv => ⟨h.material, h.image, hv, h.name, h.shared⟩) <|
    .cons (.fld wide_gp fun _ _ h hv => ⟨h.material, h.image, h.surface, hv, h.shared⟩) <|
    .cons (.fld GP.any fun _ _ h _ => ⟨h.material, h.image, h.surface, h.name, h.shared⟩) .nil)
    (timerArms_inv fun _ _ h => ⟨h.material, h.image, h.surface, h.name, h.shared⟩))
    (sharedArms_inv (fun _ h => h.shared) fun _ _ h ha => ⟨h.material, h.image, h.surface, h.name, ha⟩))

theorem Spinner.init_wf : Spinner.WF Spinner.init where
  material := by decide
  image := by decide
  surface := by decide
  name := by decide
  shared := ⟨.none, .none⟩

theorem Spinner.arms_tame : ArmsTame Spinner.arms := by
  unfold Spinner.arms
  exact (.append (.append (.cons (fun _ => vertex2d_tame.fld) <|
    .cons (fun _ => f32_tame.fld) <|
    .cons (fun _ => f32_tame.fld) <|
    .cons (fun _ => f32_tame.fld) <|
    .cons (fun _ => f32_tame.fld) <|
    .cons (fun _ => f32_tame.fld) <|
    .cons (fun _ => f32_tame.fld) <|
    .cons (fun _ => f32_tame.fld) <|
    .cons (fun _ => bool_tame.fld) <|
    .cons (fun _ => bool_tame.fld) <|
    .cons (fun _ => string_tame.fld) <|
    .cons (fun _ => string_tame.fld) <|
    .cons (fun _ => string_tame.fld) <|
    .cons (fun _ => wide_tame.fld) <|
    .cons (fun _ => bool_tame.fld) .nil) (timerArms_tame _)) (sharedArms_tame _))

end Vpin
