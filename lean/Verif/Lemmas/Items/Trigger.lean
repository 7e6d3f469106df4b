import Verif.Lemmas.Enums
import Verif.Lemmas.Tame
import Verif.Lemmas.ItemData
import Verif.Lemmas.Items.DragPoint
/-
`Trigger`: reading back what was written, and what the reader guarantees for every input.
Generated by tools/gen_items.py.
-/
namespace Vpin


theorem Trigger.reads {s : Trigger} (h : s.WF) : OReads Trigger.arms s.ops Trigger.init s := by
  unfold Trigger.ops
  refine .segTo ⟨Trigger.init.name, s.center, Trigger.init.radius, Trigger.init.rotation, Trigger.init.wire_thickness, Trigger.init.scale_x, Trigger.init.scale_y, Trigger.init.material, Trigger.init.surface, Trigger.init.is_visible, Trigger.init.is_enabled, Trigger.init.hit_height, Trigger.init.shape, Trigger.init.anim_speed, Trigger.init.is_reflection_enabled, Trigger.init.timer, Trigger.init.shared, Trigger.init.drag_points⟩
    (vertex2d_rt.req trivial rfl) rfl ?_
  refine .segTo ⟨Trigger.init.name, s.center, s.radius, Trigger.init.rotation, Trigger.init.wire_thickness, Trigger.init.scale_x, Trigger.init.scale_y, Trigger.init.material, Trigger.init.surface, Trigger.init.is_visible, Trigger.init.is_enabled, Trigger.init.hit_height, Trigger.init.shape, Trigger.init.anim_speed, Trigger.init.is_reflection_enabled, Trigger.init.timer, Trigger.init.shared, Trigger.init.drag_points⟩
    (f32_rt.req trivial rfl) rfl ?_
  refine .segTo ⟨Trigger.init.name, s.center, s.radius, s.rotation, Trigger.init.wire_thickness, Trigger.init.scale_x, Trigger.init.scale_y, Trigger.init.material, Trigger.init.surface, Trigger.init.is_visible, Trigger.init.is_enabled, Trigger.init.hit_height, Trigger.init.shape, Trigger.init.anim_speed, Trigger.init.is_reflection_enabled, Trigger.init.timer, Trigger.init.shared, Trigger.init.drag_points⟩
    (f32_rt.req trivial rfl) rfl ?_
  refine .segTo ⟨Trigger.init.name, s.center, s.radius, s.rotation, s.wire_thickness, Trigger.init.scale_x, Trigger.init.scale_y, Trigger.init.material, Trigger.init.surface, Trigger.init.is_visible, Trigger.init.is_enabled, Trigger.init.hit_height, Trigger.init.shape, Trigger.init.anim_speed, Trigger.init.is_reflection_enabled, Trigger.init.timer, Trigger.init.shared, Trigger.init.drag_points⟩
    (f32_rt.opt (fun v (s : Trigger) => { s with wire_thickness := v }) (fun _ _ => trivial) rfl rfl) rfl ?_
  refine .segTo ⟨Trigger.init.name, s.center, s.radius, s.rotation, s.wire_thickness, s.scale_x, Trigger.init.scale_y, Trigger.init.material, Trigger.init.surface, Trigger.init.is_visible, Trigger.init.is_enabled, Trigger.init.hit_height, Trigger.init.shape, Trigger.init.anim_speed, Trigger.init.is_reflection_enabled, Trigger.init.timer, Trigger.init.shared, Trigger.init.drag_points⟩
    (f32_rt.req trivial rfl) rfl ?_
  refine .segTo ⟨Trigger.init.name, s.center, s.radius, s.rotation, s.wire_thickness, s.scale_x, s.scale_y, Trigger.init.material, Trigger.init.surface, Trigger.init.is_visible, Trigger.init.is_enabled, Trigger.init.hit_height, Trigger.init.shape, Trigger.init.anim_speed, Trigger.init.is_reflection_enabled, Trigger.init.timer, Trigger.init.shared, Trigger.init.drag_points⟩
    (f32_rt.req trivial rfl) rfl ?_
  refine .segTo ⟨Trigger.init.name, s.center, s.radius, s.rotation, s.wire_thickness, s.scale_x, s.scale_y, Trigger.init.material, Trigger.init.surface, Trigger.init.is_visible, Trigger.init.is_enabled, Trigger.init.hit_height, Trigger.init.shape, Trigger.init.anim_speed, Trigger.init.is_reflection_enabled, s.timer, Trigger.init.shared, Trigger.init.drag_points⟩
    (timer_reads (L := Trigger.timerL) ⟨fun _ _ => rfl, fun _ _ _ => rfl, fun _ => rfl⟩ rfl rfl) rfl ?_
  refine .segTo ⟨Trigger.init.name, s.center, s.radius, s.rotation, s.wire_thickness, s.scale_x, s.scale_y, Trigger.init.material, s.surface, Trigger.init.is_visible, Trigger.init.is_enabled, Trigger.init.hit_height, Trigger.init.shape, Trigger.init.anim_speed, Trigger.init.is_reflection_enabled, s.timer, Trigger.init.shared, Trigger.init.drag_points⟩
    (string_rt.req h.surface rfl) rfl ?_
  refine .segTo ⟨Trigger.init.name, s.center, s.radius, s.rotation, s.wire_thickness, s.scale_x, s.scale_y, s.material, s.surface, Trigger.init.is_visible, Trigger.init.is_enabled, Trigger.init.hit_height, Trigger.init.shape, Trigger.init.anim_speed, Trigger.init.is_reflection_enabled, s.timer, Trigger.init.shared, Trigger.init.drag_points⟩
    (string_rt.req h.material rfl) rfl ?_
  refine .segTo ⟨Trigger.init.name, s.center, s.radius, s.rotation, s.wire_thickness, s.scale_x, s.scale_y, s.material, s.surface, Trigger.init.is_visible, s.is_enabled, Trigger.init.hit_height, Trigger.init.shape, Trigger.init.anim_speed, Trigger.init.is_reflection_enabled, s.timer, Trigger.init.shared, Trigger.init.drag_points⟩
    (bool_rt.req trivial rfl) rfl ?_
  refine .segTo ⟨Trigger.init.name, s.center, s.radius, s.rotation, s.wire_thickness, s.scale_x, s.scale_y, s.material, s.surface, s.is_visible, s.is_enabled, Trigger.init.hit_height, Trigger.init.shape, Trigger.init.anim_speed, Trigger.init.is_reflection_enabled, s.timer, Trigger.init.shared, Trigger.init.drag_points⟩
    (bool_rt.req trivial rfl) rfl ?_
  refine .segTo ⟨Trigger.init.name, s.center, s.radius, s.rotation, s.wire_thickness, s.scale_x, s.scale_y, s.material, s.surface, s.is_visible, s.is_enabled, s.hit_height, Trigger.init.shape, Trigger.init.anim_speed, Trigger.init.is_reflection_enabled, s.timer, Trigger.init.shared, Trigger.init.drag_points⟩
    (f32_rt.req trivial rfl) rfl ?_
  refine .segTo ⟨s.name, s.center, s.radius, s.rotation, s.wire_thickness, s.scale_x, s.scale_y, s.material, s.surface, s.is_visible, s.is_enabled, s.hit_height, Trigger.init.shape, Trigger.init.anim_speed, Trigger.init.is_reflection_enabled, s.timer, Trigger.init.shared, Trigger.init.drag_points⟩
    (wide_rt.req h.name rfl) rfl ?_
  refine .segTo ⟨s.name, s.center, s.radius, s.rotation, s.wire_thickness, s.scale_x, s.scale_y, s.material, s.surface, s.is_visible, s.is_enabled, s.hit_height, s.shape, Trigger.init.anim_speed, Trigger.init.is_reflection_enabled, s.timer, Trigger.init.shared, Trigger.init.drag_points⟩
    (TriggerShape.rt.req trivial rfl) rfl ?_
  refine .segTo ⟨s.name, s.center, s.radius, s.rotation, s.wire_thickness, s.scale_x, s.scale_y, s.material, s.surface, s.is_visible, s.is_enabled, s.hit_height, s.shape, s.anim_speed, Trigger.init.is_reflection_enabled, s.timer, Trigger.init.shared, Trigger.init.drag_points⟩
    (f32_rt.req trivial rfl) rfl ?_
  refine .segTo ⟨s.name, s.center, s.radius, s.rotation, s.wire_thickness, s.scale_x, s.scale_y, s.material, s.surface, s.is_visible, s.is_enabled, s.hit_height, s.shape, s.anim_speed, s.is_reflection_enabled, s.timer, Trigger.init.shared, Trigger.init.drag_points⟩
    (bool_rt.opt (fun v (s : Trigger) => { s with is_reflection_enabled := v }) (fun _ _ => trivial) rfl rfl) rfl ?_
  refine .segTo ⟨s.name, s.center, s.radius, s.rotation, s.wire_thickness, s.scale_x, s.scale_y, s.material, s.surface, s.is_visible, s.is_enabled, s.hit_height, s.shape, s.anim_speed, s.is_reflection_enabled, s.timer, s.shared, Trigger.init.drag_points⟩
    (shared_reads (L := Trigger.sharedL) ⟨fun _ _ => rfl, fun _ _ _ => rfl, fun _ => rfl⟩ h.shared rfl rfl rfl rfl rfl rfl) rfl ?_
  refine .segTo ⟨s.name, s.center, s.radius, s.rotation, s.wire_thickness, s.scale_x, s.scale_y, s.material, s.surface, s.is_visible, s.is_enabled, s.hit_height, s.shape, s.anim_speed, s.is_reflection_enabled, s.timer, s.shared, s.drag_points⟩
    (OReads.nestedList (hs' := DragPoint.arms) (u := DragPoint.init) _
    (fun l (s : Trigger) => { s with drag_points := s.drag_points ++ l }) rfl
    (fun v hv => DragPoint.reads (h.drag_points v hv)) (fun v l s => by simp)
    (fun s => by simp)) rfl ?_
  exact .done rfl

theorem Trigger.arms_inv : ArmsInv Trigger.WF Trigger.arms := by
  unfold Trigger.arms
  exact (.append (.append (.cons (.fld GP.any fun _ _ h _ => ⟨h.surface, h.material, h.name, h.shared, h.drag_points⟩) <|
    .cons (.fld GP.any fun _ _ h _ => ⟨h.surface, h.material, h.name, h.shared, h.drag_points⟩) <|
    .cons (.fld GP.any fun _ _ h _ => ⟨h.surface, h.material, h.name, h.shared, h.drag_points⟩) <|
    .cons (.fld GP.any fun _ _ h _ => ⟨h.surface, h.material, h.name, h.shared, h.drag_points⟩) <|
    .cons (.fld GP.any fun _ _ h _ => ⟨h.surface, h.material, h.name, h.shared, h.drag_points⟩) <|
    .cons (.fld GP.any fun _ _ h _ => ⟨h.surface, h.material, h.name, h.shared, h.drag_points⟩) <|
    .cons (.fld string_gp fun _ _ h hv => ⟨h.surface, hv, h.name, h.shared, h.drag_points⟩) <|
    .cons (.fld string_gp fun _ _ h hv => ⟨hv, h.material, h.name, h.shared, h.drag_points⟩) <|
    .cons (.fld GP.any fun _ _ h _ => ⟨h.surface, h.material, h.name, h.shared, h.drag_points⟩) <|
    .cons (.fld GP.any fun _ _ h _ => ⟨h.surface, h.material, h.name, h.shared, h.drag_points⟩) <|
    .cons (.fld GP.any fun _ _ h _ => ⟨h.surface, h.material, h.name, h.shared, h.drag_points⟩) <|
    .cons (.fld wide_gp fun _ _ h hv => ⟨h.surface, h.material, hv, h.shared, h.drag_points⟩) <|
    .cons (.fld GP.any fun _ _ h _ => ⟨h.surface, h.material, h.name, h.shared, h.drag_points⟩) <|
    .cons (.fld GP.any fun _ _ h _ => ⟨h.surface, h.material, h.name, h.shared, h.drag_points⟩) <|
    .cons (.fld GP.any fun _ _ h _ => ⟨h.surface, h.material, h.name, h.shared, h.drag_points⟩) <|
    .cons (.fld (getChild_gp (readWith_gp DragPoint.arms_inv DragPoint.init_wf)) fun _ _ h hv => ⟨h.surface, h.material, h.name, h.shared, (forall_append h.drag_points hv)⟩) .nil)
    (timerArms_inv fun _ _ h => ⟨h.surface, h.material, h.name, h.shared, h.drag_points⟩))
    (sharedArms_inv (fun _ h => h.shared) fun _ _ h ha => ⟨h.surface, h.material, h.name, ha, h.drag_points⟩))

theorem Trigger.init_wf : Trigger.WF Trigger.init where
  surface := by decide
  material := by decide
  name := by decide
  shared := ⟨.none, .none⟩
  drag_points := by intro p hp; cases hp

theorem Trigger.arms_tame : ArmsTame Trigger.arms := by
  unfold Trigger.arms
  exact (.append (.append (.cons (fun _ => vertex2d_tame.fld) <|
    .cons (fun _ => f32_tame.fld) <|
    .cons (fun _ => f32_tame.fld) <|
    .cons (fun _ => f32_tame.fld) <|
    .cons (fun _ => f32_tame.fld) <|
    .cons (fun _ => f32_tame.fld) <|
    .cons (fun _ => string_tame.fld) <|
    .cons (fun _ => string_tame.fld) <|
    .cons (fun _ => bool_tame.fld) <|
    .cons (fun _ => bool_tame.fld) <|
    .cons (fun _ => f32_tame.fld) <|
    .cons (fun _ => wide_tame.fld) <|
    .cons (fun _ => enum_tame.fld) <|
    .cons (fun _ => f32_tame.fld) <|
    .cons (fun _ => bool_tame.fld) <|
    .cons (fun _ => (getChild_tame (readWith_tame DragPoint.arms_tame _)).fld) .nil) (timerArms_tame _)) (sharedArms_tame _))

end Vpin
