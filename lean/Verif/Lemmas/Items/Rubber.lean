import Verif.Lemmas.Enums
import Verif.Lemmas.Tame
import Verif.Lemmas.ItemData
import Verif.Lemmas.Items.DragPoint
/-
`Rubber`: reading back what was written, and what the reader guarantees for every input.
Generated by tools/gen_items.py.
-/
namespace Vpin


theorem Rubber.reads {s : Rubber} (h : s.WF) : OReads Rubber.arms s.ops Rubber.init s := by
  unfold Rubber.ops
  refine .segTo ⟨s.height, Rubber.init.hit_height, Rubber.init.thickness, Rubber.init.hit_event, Rubber.init.material, Rubber.init.name, Rubber.init.image, Rubber.init.elasticity, Rubber.init.elasticity_falloff, Rubber.init.friction, Rubber.init.scatter, Rubber.init.is_collidable, Rubber.init.is_visible, Rubber.init.radb, Rubber.init.static_rendering, Rubber.init.show_in_editor, Rubber.init.rot_x, Rubber.init.rot_y, Rubber.init.rot_z, Rubber.init.is_reflection_enabled, Rubber.init.physics_material, Rubber.init.overwrite_physics, Rubber.init.timer, Rubber.init.shared, Rubber.init.drag_points⟩
    (f32_rt.req trivial rfl) rfl ?_
  refine .segTo ⟨s.height, s.hit_height, Rubber.init.thickness, Rubber.init.hit_event, Rubber.init.material, Rubber.init.name, Rubber.init.image, Rubber.init.elasticity, Rubber.init.elasticity_falloff, Rubber.init.friction, Rubber.init.scatter, Rubber.init.is_collidable, Rubber.init.is_visible, Rubber.init.radb, Rubber.init.static_rendering, Rubber.init.show_in_editor, Rubber.init.rot_x, Rubber.init.rot_y, Rubber.init.rot_z, Rubber.init.is_reflection_enabled, Rubber.init.physics_material, Rubber.init.overwrite_physics, Rubber.init.timer, Rubber.init.shared, Rubber.init.drag_points⟩
    (f32_rt.opt (fun v (s : Rubber) => { s with hit_height := v }) (fun _ _ => trivial) rfl rfl) rfl ?_
  refine .segTo ⟨s.height, s.hit_height, s.thickness, Rubber.init.hit_event, Rubber.init.material, Rubber.init.name, Rubber.init.image, Rubber.init.elasticity, Rubber.init.elasticity_falloff, Rubber.init.friction, Rubber.init.scatter, Rubber.init.is_collidable, Rubber.init.is_visible, Rubber.init.radb, Rubber.init.static_rendering, Rubber.init.show_in_editor, Rubber.init.rot_x, Rubber.init.rot_y, Rubber.init.rot_z, Rubber.init.is_reflection_enabled, Rubber.init.physics_material, Rubber.init.overwrite_physics, Rubber.init.timer, Rubber.init.shared, Rubber.init.drag_points⟩
    (i32_rt.req trivial rfl) rfl ?_
  refine .segTo ⟨s.height, s.hit_height, s.thickness, s.hit_event, Rubber.init.material, Rubber.init.name, Rubber.init.image, Rubber.init.elasticity, Rubber.init.elasticity_falloff, Rubber.init.friction, Rubber.init.scatter, Rubber.init.is_collidable, Rubber.init.is_visible, Rubber.init.radb, Rubber.init.static_rendering, Rubber.init.show_in_editor, Rubber.init.rot_x, Rubber.init.rot_y, Rubber.init.rot_z, Rubber.init.is_reflection_enabled, Rubber.init.physics_material, Rubber.init.overwrite_physics, Rubber.init.timer, Rubber.init.shared, Rubber.init.drag_points⟩
    (bool_rt.req trivial rfl) rfl ?_
  refine .segTo ⟨s.height, s.hit_height, s.thickness, s.hit_event, s.material, Rubber.init.name, Rubber.init.image, Rubber.init.elasticity, Rubber.init.elasticity_falloff, Rubber.init.friction, Rubber.init.scatter, Rubber.init.is_collidable, Rubber.init.is_visible, Rubber.init.radb, Rubber.init.static_rendering, Rubber.init.show_in_editor, Rubber.init.rot_x, Rubber.init.rot_y, Rubber.init.rot_z, Rubber.init.is_reflection_enabled, Rubber.init.physics_material, Rubber.init.overwrite_physics, Rubber.init.timer, Rubber.init.shared, Rubber.init.drag_points⟩
    (string_rt.req h.material rfl) rfl ?_
  refine .segTo ⟨s.height, s.hit_height, s.thickness, s.hit_event, s.material, Rubber.init.name, Rubber.init.image, Rubber.init.elasticity, Rubber.init.elasticity_falloff, Rubber.init.friction, Rubber.init.scatter, Rubber.init.is_collidable, Rubber.init.is_visible, Rubber.init.radb, Rubber.init.static_rendering, Rubber.init.show_in_editor, Rubber.init.rot_x, Rubber.init.rot_y, Rubber.init.rot_z, Rubber.init.is_reflection_enabled, Rubber.init.physics_material, Rubber.init.overwrite_physics, s.timer, Rubber.init.shared, Rubber.init.drag_points⟩
    (timer_reads (L := Rubber.timerL) ⟨fun _ _ => rfl, fun _ _ _ => rfl, fun _ => rfl⟩ rfl rfl) rfl ?_
  refine .segTo ⟨s.height, s.hit_height, s.thickness, s.hit_event, s.material, s.name, Rubber.init.image, Rubber.init.elasticity, Rubber.init.elasticity_falloff, Rubber.init.friction, Rubber.init.scatter, Rubber.init.is_collidable, Rubber.init.is_visible, Rubber.init.radb, Rubber.init.static_rendering, Rubber.init.show_in_editor, Rubber.init.rot_x, Rubber.init.rot_y, Rubber.init.rot_z, Rubber.init.is_reflection_enabled, Rubber.init.physics_material, Rubber.init.overwrite_physics, s.timer, Rubber.init.shared, Rubber.init.drag_points⟩
    (wide_rt.req h.name rfl) rfl ?_
  refine .segTo ⟨s.height, s.hit_height, s.thickness, s.hit_event, s.material, s.name, s.image, Rubber.init.elasticity, Rubber.init.elasticity_falloff, Rubber.init.friction, Rubber.init.scatter, Rubber.init.is_collidable, Rubber.init.is_visible, Rubber.init.radb, Rubber.init.static_rendering, Rubber.init.show_in_editor, Rubber.init.rot_x, Rubber.init.rot_y, Rubber.init.rot_z, Rubber.init.is_reflection_enabled, Rubber.init.physics_material, Rubber.init.overwrite_physics, s.timer, Rubber.init.shared, Rubber.init.drag_points⟩
    (string_rt.req h.image rfl) rfl ?_
  refine .segTo ⟨s.height, s.hit_height, s.thickness, s.hit_event, s.material, s.name, s.image, s.elasticity, Rubber.init.elasticity_falloff, Rubber.init.friction, Rubber.init.scatter, Rubber.init.is_collidable, Rubber.init.is_visible, Rubber.init.radb, Rubber.init.static_rendering, Rubber.init.show_in_editor, Rubber.init.rot_x, Rubber.init.rot_y, Rubber.init.rot_z, Rubber.init.is_reflection_enabled, Rubber.init.physics_material, Rubber.init.overwrite_physics, s.timer, Rubber.init.shared, Rubber.init.drag_points⟩
    (f32_rt.req trivial rfl) rfl ?_
  refine .segTo ⟨s.height, s.hit_height, s.thickness, s.hit_event, s.material, s.name, s.image, s.elasticity, s.elasticity_falloff, Rubber.init.friction, Rubber.init.scatter, Rubber.init.is_collidable, Rubber.init.is_visible, Rubber.init.radb, Rubber.init.static_rendering, Rubber.init.show_in_editor, Rubber.init.rot_x, Rubber.init.rot_y, Rubber.init.rot_z, Rubber.init.is_reflection_enabled, Rubber.init.physics_material, Rubber.init.overwrite_physics, s.timer, Rubber.init.shared, Rubber.init.drag_points⟩
    (f32_rt.req trivial rfl) rfl ?_
  refine .segTo ⟨s.height, s.hit_height, s.thickness, s.hit_event, s.material, s.name, s.image, s.elasticity, s.elasticity_falloff, s.friction, Rubber.init.scatter, Rubber.init.is_collidable, Rubber.init.is_visible, Rubber.init.radb, Rubber.init.static_rendering, Rubber.init.show_in_editor, Rubber.init.rot_x, Rubber.init.rot_y, Rubber.init.rot_z, Rubber.init.is_reflection_enabled, Rubber.init.physics_material, Rubber.init.overwrite_physics, s.timer, Rubber.init.shared, Rubber.init.drag_points⟩
    (f32_rt.req trivial rfl) rfl ?_
  refine .segTo ⟨s.height, s.hit_height, s.thickness, s.hit_event, s.material, s.name, s.image, s.elasticity, s.elasticity_falloff, s.friction, s.scatter, Rubber.init.is_collidable, Rubber.init.is_visible, Rubber.init.radb, Rubber.init.static_rendering, Rubber.init.show_in_editor, Rubber.init.rot_x, Rubber.init.rot_y, Rubber.init.rot_z, Rubber.init.is_reflection_enabled, Rubber.init.physics_material, Rubber.init.overwrite_physics, s.timer, Rubber.init.shared, Rubber.init.drag_points⟩
    (f32_rt.req trivial rfl) rfl ?_
  refine .segTo ⟨s.height, s.hit_height, s.thickness, s.hit_event, s.material, s.name, s.image, s.elasticity, s.elasticity_falloff, s.friction, s.scatter, s.is_collidable, Rubber.init.is_visible, Rubber.init.radb, Rubber.init.static_rendering, Rubber.init.show_in_editor, Rubber.init.rot_x, Rubber.init.rot_y, Rubber.init.rot_z, Rubber.init.is_reflection_enabled, Rubber.init.physics_material, Rubber.init.overwrite_physics, s.timer, Rubber.init.shared, Rubber.init.drag_points⟩
    (bool_rt.req trivial rfl) rfl ?_
  refine .segTo ⟨s.height, s.hit_height, s.thickness, s.hit_event, s.material, s.name, s.image, s.elasticity, s.elasticity_falloff, s.friction, s.scatter, s.is_collidable, s.is_visible, Rubber.init.radb, Rubber.init.static_rendering, Rubber.init.show_in_editor, Rubber.init.rot_x, Rubber.init.rot_y, Rubber.init.rot_z, Rubber.init.is_reflection_enabled, Rubber.init.physics_material, Rubber.init.overwrite_physics, s.timer, Rubber.init.shared, Rubber.init.drag_points⟩
    (bool_rt.req trivial rfl) rfl ?_
  refine .segTo ⟨s.height, s.hit_height, s.thickness, s.hit_event, s.material, s.name, s.image, s.elasticity, s.elasticity_falloff, s.friction, s.scatter, s.is_collidable, s.is_visible, s.radb, Rubber.init.static_rendering, Rubber.init.show_in_editor, Rubber.init.rot_x, Rubber.init.rot_y, Rubber.init.rot_z, Rubber.init.is_reflection_enabled, Rubber.init.physics_material, Rubber.init.overwrite_physics, s.timer, Rubber.init.shared, Rubber.init.drag_points⟩
    (f32_rt.opt (fun v (s : Rubber) => { s with radb := v }) (fun _ _ => trivial) rfl rfl) rfl ?_
  refine .segTo ⟨s.height, s.hit_height, s.thickness, s.hit_event, s.material, s.name, s.image, s.elasticity, s.elasticity_falloff, s.friction, s.scatter, s.is_collidable, s.is_visible, s.radb, s.static_rendering, Rubber.init.show_in_editor, Rubber.init.rot_x, Rubber.init.rot_y, Rubber.init.rot_z, Rubber.init.is_reflection_enabled, Rubber.init.physics_material, Rubber.init.overwrite_physics, s.timer, Rubber.init.shared, Rubber.init.drag_points⟩
    (bool_rt.req trivial rfl) rfl ?_
  refine .segTo ⟨s.height, s.hit_height, s.thickness, s.hit_event, s.material, s.name, s.image, s.elasticity, s.elasticity_falloff, s.friction, s.scatter, s.is_collidable, s.is_visible, s.radb, s.static_rendering, s.show_in_editor, Rubber.init.rot_x, Rubber.init.rot_y, Rubber.init.rot_z, Rubber.init.is_reflection_enabled, Rubber.init.physics_material, Rubber.init.overwrite_physics, s.timer, Rubber.init.shared, Rubber.init.drag_points⟩
    (bool_rt.req trivial rfl) rfl ?_
  refine .segTo ⟨s.height, s.hit_height, s.thickness, s.hit_event, s.material, s.name, s.image, s.elasticity, s.elasticity_falloff, s.friction, s.scatter, s.is_collidable, s.is_visible, s.radb, s.static_rendering, s.show_in_editor, s.rot_x, Rubber.init.rot_y, Rubber.init.rot_z, Rubber.init.is_reflection_enabled, Rubber.init.physics_material, Rubber.init.overwrite_physics, s.timer, Rubber.init.shared, Rubber.init.drag_points⟩
    (f32_rt.req trivial rfl) rfl ?_
  refine .segTo ⟨s.height, s.hit_height, s.thickness, s.hit_event, s.material, s.name, s.image, s.elasticity, s.elasticity_falloff, s.friction, s.scatter, s.is_collidable, s.is_visible, s.radb, s.static_rendering, s.show_in_editor, s.rot_x, s.rot_y, Rubber.init.rot_z, Rubber.init.is_reflection_enabled, Rubber.init.physics_material, Rubber.init.overwrite_physics, s.timer, Rubber.init.shared, Rubber.init.drag_points⟩
    (f32_rt.req trivial rfl) rfl ?_
  refine .segTo ⟨s.height, s.hit_height, s.thickness, s.hit_event, s.material, s.name, s.image, s.elasticity, s.elasticity_falloff, s.friction, s.scatter, s.is_collidable, s.is_visible, s.radb, s.static_rendering, s.show_in_editor, s.rot_x, s.rot_y, s.rot_z, Rubber.init.is_reflection_enabled, Rubber.init.physics_material, Rubber.init.overwrite_physics, s.timer, Rubber.init.shared, Rubber.init.drag_points⟩
    (f32_rt.req trivial rfl) rfl ?_
  refine .segTo ⟨s.height, s.hit_height, s.thickness, s.hit_event, s.material, s.name, s.image, s.elasticity, s.elasticity_falloff, s.friction, s.scatter, s.is_collidable, s.is_visible, s.radb, s.static_rendering, s.show_in_editor, s.rot_x, s.rot_y, s.rot_z, s.is_reflection_enabled, Rubber.init.physics_material, Rubber.init.overwrite_physics, s.timer, Rubber.init.shared, Rubber.init.drag_points⟩
    (bool_rt.opt (fun v (s : Rubber) => { s with is_reflection_enabled := v }) (fun _ _ => trivial) rfl rfl) rfl ?_
  refine .segTo ⟨s.height, s.hit_height, s.thickness, s.hit_event, s.material, s.name, s.image, s.elasticity, s.elasticity_falloff, s.friction, s.scatter, s.is_collidable, s.is_visible, s.radb, s.static_rendering, s.show_in_editor, s.rot_x, s.rot_y, s.rot_z, s.is_reflection_enabled, s.physics_material, Rubber.init.overwrite_physics, s.timer, Rubber.init.shared, Rubber.init.drag_points⟩
    (string_rt.opt (fun v (s : Rubber) => { s with physics_material := v }) h.physics_material rfl rfl) rfl ?_
  refine .segTo ⟨s.height, s.hit_height, s.thickness, s.hit_event, s.material, s.name, s.image, s.elasticity, s.elasticity_falloff, s.friction, s.scatter, s.is_collidable, s.is_visible, s.radb, s.static_rendering, s.show_in_editor, s.rot_x, s.rot_y, s.rot_z, s.is_reflection_enabled, s.physics_material, s.overwrite_physics, s.timer, Rubber.init.shared, Rubber.init.drag_points⟩
    (bool_rt.opt (fun v (s : Rubber) => { s with overwrite_physics := v }) (fun _ _ => trivial) rfl rfl) rfl ?_
  refine .segTo ⟨s.height, s.hit_height, s.thickness, s.hit_event, s.material, s.name, s.image, s.elasticity, s.elasticity_falloff, s.friction, s.scatter, s.is_collidable, s.is_visible, s.radb, s.static_rendering, s.show_in_editor, s.rot_x, s.rot_y, s.rot_z, s.is_reflection_enabled, s.physics_material, s.overwrite_physics, s.timer, s.shared, Rubber.init.drag_points⟩
    (shared_reads (L := Rubber.sharedL) ⟨fun _ _ => rfl, fun _ _ _ => rfl, fun _ => rfl⟩ h.shared rfl rfl rfl rfl rfl rfl) rfl ?_
  refine .segTo ⟨s.height, s.hit_height, s.thickness, s.hit_event, s.material, s.name, s.image, s.elasticity, s.elasticity_falloff, s.friction, s.scatter, s.is_collidable, s.is_visible, s.radb, s.static_rendering, s.show_in_editor, s.rot_x, s.rot_y, s.rot_z, s.is_reflection_enabled, s.physics_material, s.overwrite_physics, s.timer, s.shared, Rubber.init.drag_points⟩
    (OReads.marker rfl) rfl ?_
  refine .segTo ⟨s.height, s.hit_height, s.thickness, s.hit_event, s.material, s.name, s.image, s.elasticity, s.elasticity_falloff, s.friction, s.scatter, s.is_collidable, s.is_visible, s.radb, s.static_rendering, s.show_in_editor, s.rot_x, s.rot_y, s.rot_z, s.is_reflection_enabled, s.physics_material, s.overwrite_physics, s.timer, s.shared, s.drag_points⟩
    (OReads.nestedList (hs' := DragPoint.arms) (u := DragPoint.init) _
    (fun l (s : Rubber) => { s with drag_points := s.drag_points ++ l }) rfl
    (fun v hv => DragPoint.reads (h.drag_points v hv)) (fun v l s => by simp)
    (fun s => by simp)) rfl ?_
  exact .done rfl

theorem Rubber.arms_inv : ArmsInv Rubber.WF Rubber.arms := by
  unfold Rubber.arms
  exact (.append (.append (.cons (.fld GP.any fun _ _ h _ => ⟨h.material, h.name, h.image, h.physics_material, h.shared, h.drag_points⟩) <|
    .cons (.fld GP.any fun _ _ h _ => ⟨h.material, h.name, h.image, h.physics_material, h.shared, h.drag_points⟩) <|
    .cons (.fld GP.any fun _ _ h _ => ⟨h.material, h.name, h.image, h.physics_material, h.shared, h.drag_points⟩) <|
    .cons (.fld GP.any fun _ _ h _ => ⟨h.material, h.name, h.image, h.physics_material, h.shared, h.drag_points⟩) <|
    .cons (.fld string_gp fun _ _ h hv => ⟨hv, h.name, h.image, h.physics_material, h.shared, h.drag_points⟩) <|
    .cons (.fld wide_gp fun _ _ h hv => ⟨h.material, hv, h.image, h.physics_material, h.shared, h.drag_points⟩) <|
    .cons (.fld string_gp fun _ _ h hv => ⟨h.material, h.name, hv, h.physics_material, h.shared, h.drag_points⟩) <|
    .cons (.fld GP.any fun _ _ h _ => ⟨h.material, h.name, h.image, h.physics_material, h.shared, h.drag_points⟩) <|
    .cons (.fld GP.any fun _ _ h _ => ⟨h.material, h.name, h.image, h.physics_material, h.shared, h.drag_points⟩) <|
    .cons (.fld GP.any fun _ _ h _ => ⟨h.material, h.name, h.image, h.physics_material, h.shared, h.drag_points⟩) <|
    .cons (.fld GP.any fun _ _ h _ => ⟨h.material, h.name, h.image, h.physics_material, h.shared, h.drag_points⟩) <|
    .cons (.fld GP.any fun _ _ h _ => ⟨h.material, h.name, h.image, h.physics_material, h.shared, h.drag_points⟩) <|
    .cons (.fld GP.any fun _ _ h _ => ⟨h.material, h.name, h.image, h.physics_material, h.shared, h.drag_points⟩) <|
    .cons (.fld GP.any fun _ _ h _ => ⟨h.material, h.name, h.image, h.physics_material, h.shared, h.drag_points⟩) <|
    .cons (.fld GP.any fun _ _ h _ => ⟨h.material, h.name, h.image, h.physics_material, h.shared, h.drag_points⟩) <|
    .cons (.fld GP.any fun _ _ h _ => ⟨h.material, h.name, h.image, h.physics_material, h.shared, h.drag_points⟩) <|
    .cons (.fld GP.any fun _ _ h _ => ⟨h.material, h.name, h.image, h.physics_material, h.shared, h.drag_points⟩) <|
    .cons (.fld GP.any fun _ _ h _ => ⟨h.material, h.name, h.image, h.physics_material, h.shared, h.drag_points⟩) <|
    .cons (.fld GP.any fun _ _ h _ => ⟨h.material, h.name, h.image, h.physics_material, h.shared, h.drag_points⟩) <|
    .cons (.fld GP.any fun _ _ h _ => ⟨h.material, h.name, h.image, h.physics_material, h.shared, h.drag_points⟩) <|
    .cons (.fld string_gp fun _ _ h hv => ⟨h.material, h.name, h.image, .some hv, h.shared, h.drag_points⟩) <|
    .cons (.fld GP.any fun _ _ h _ => ⟨h.material, h.name, h.image, h.physics_material, h.shared, h.drag_points⟩) <|
    .cons .pure <|
    .cons (.fld (getChild_gp (readWith_gp DragPoint.arms_inv DragPoint.init_wf)) fun _ _ h hv => ⟨h.material, h.name, h.image, h.physics_material, h.shared, (forall_append h.drag_points hv)⟩) .nil)
    (timerArms_inv fun _ _ h => ⟨h.material, h.name, h.image, h.physics_material, h.shared, h.drag_points⟩))
    (sharedArms_inv (fun _ h => h.shared) fun _ _ h ha => ⟨h.material, h.name, h.image, h.physics_material, ha, h.drag_points⟩))

theorem Rubber.init_wf : Rubber.WF Rubber.init where
  material := by decide
  name := by decide
  image := by decide
  physics_material := .none
  shared := ⟨.none, .none⟩
  drag_points := by intro p hp; cases hp

theorem Rubber.arms_tame : ArmsTame Rubber.arms := by
  unfold Rubber.arms
  exact (.append (.append (.cons (fun _ => f32_tame.fld) <|
    .cons (fun _ => f32_tame.fld) <|
    .cons (fun _ => i32_tame.fld) <|
    .cons (fun _ => bool_tame.fld) <|
    .cons (fun _ => string_tame.fld) <|
    .cons (fun _ => wide_tame.fld) <|
    .cons (fun _ => string_tame.fld) <|
    .cons (fun _ => f32_tame.fld) <|
    .cons (fun _ => f32_tame.fld) <|
    .cons (fun _ => f32_tame.fld) <|
    .cons (fun _ => f32_tame.fld) <|
    .cons (fun _ => bool_tame.fld) <|
    .cons (fun _ => bool_tame.fld) <|
    .cons (fun _ => f32_tame.fld) <|
    .cons (fun _ => bool_tame.fld) <|
    .cons (fun _ => bool_tame.fld) <|
    .cons (fun _ => f32_tame.fld) <|
    .cons (fun _ => f32_tame.fld) <|
    .cons (fun _ => f32_tame.fld) <|
    .cons (fun _ => bool_tame.fld) <|
    .cons (fun _ => string_tame.fld) <|
    .cons (fun _ => bool_tame.fld) <|
    .cons (fun _ => Tame.pure _) <|
    .cons (fun _ => (getChild_tame (readWith_tame DragPoint.arms_tame _)).fld) .nil) (timerArms_tame _)) (sharedArms_tame _))

end Vpin
