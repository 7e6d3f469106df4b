import Verif.Lemmas.Enums
import Verif.Lemmas.Tame
import Verif.Lemmas.ItemData
/-
`LightSequencer`: reading back what was written, and what the reader guarantees for every input.
Generated by tools/gen_items.py.
-/
namespace Vpin


theorem LightSequencer.reads {s : LightSequencer} (h : s.WF) : OReads LightSequencer.arms s.ops LightSequencer.init s := by
  unfold LightSequencer.ops
  refine .segTo ⟨s.center, LightSequencer.init.collection, LightSequencer.init.pos_x, LightSequencer.init.pos_y, LightSequencer.init.update_interval, LightSequencer.init.name, LightSequencer.init.backglass, LightSequencer.init.timer, LightSequencer.init.is_locked, LightSequencer.init.editor_layer, LightSequencer.init.editor_layer_name, LightSequencer.init.editor_layer_visibility, LightSequencer.init.part_group_name⟩
    (vertex2d_rt.req trivial rfl) rfl ?_
  refine .segTo ⟨s.center, s.collection, LightSequencer.init.pos_x, LightSequencer.init.pos_y, LightSequencer.init.update_interval, LightSequencer.init.name, LightSequencer.init.backglass, LightSequencer.init.timer, LightSequencer.init.is_locked, LightSequencer.init.editor_layer, LightSequencer.init.editor_layer_name, LightSequencer.init.editor_layer_visibility, LightSequencer.init.part_group_name⟩
    (wide_rt.req h.collection rfl) rfl ?_
  refine .segTo ⟨s.center, s.collection, s.pos_x, LightSequencer.init.pos_y, LightSequencer.init.update_interval, LightSequencer.init.name, LightSequencer.init.backglass, LightSequencer.init.timer, LightSequencer.init.is_locked, LightSequencer.init.editor_layer, LightSequencer.init.editor_layer_name, LightSequencer.init.editor_layer_visibility, LightSequencer.init.part_group_name⟩
    (f32_rt.req trivial rfl) rfl ?_
  refine .segTo ⟨s.center, s.collection, s.pos_x, s.pos_y, LightSequencer.init.update_interval, LightSequencer.init.name, LightSequencer.init.backglass, LightSequencer.init.timer, LightSequencer.init.is_locked, LightSequencer.init.editor_layer, LightSequencer.init.editor_layer_name, LightSequencer.init.editor_layer_visibility, LightSequencer.init.part_group_name⟩
    (f32_rt.req trivial rfl) rfl ?_
  refine .segTo ⟨s.center, s.collection, s.pos_x, s.pos_y, s.update_interval, LightSequencer.init.name, LightSequencer.init.backglass, LightSequencer.init.timer, LightSequencer.init.is_locked, LightSequencer.init.editor_layer, LightSequencer.init.editor_layer_name, LightSequencer.init.editor_layer_visibility, LightSequencer.init.part_group_name⟩
    (u32_rt.req trivial rfl) rfl ?_
  refine .segTo ⟨s.center, s.collection, s.pos_x, s.pos_y, s.update_interval, LightSequencer.init.name, LightSequencer.init.backglass, s.timer, LightSequencer.init.is_locked, LightSequencer.init.editor_layer, LightSequencer.init.editor_layer_name, LightSequencer.init.editor_layer_visibility, LightSequencer.init.part_group_name⟩
    (timer_reads (L := LightSequencer.timerL) ⟨fun _ _ => rfl, fun _ _ _ => rfl, fun _ => rfl⟩ rfl rfl) rfl ?_
  refine .segTo ⟨s.center, s.collection, s.pos_x, s.pos_y, s.update_interval, s.name, LightSequencer.init.backglass, s.timer, LightSequencer.init.is_locked, LightSequencer.init.editor_layer, LightSequencer.init.editor_layer_name, LightSequencer.init.editor_layer_visibility, LightSequencer.init.part_group_name⟩
    (wide_rt.req h.name rfl) rfl ?_
  refine .segTo ⟨s.center, s.collection, s.pos_x, s.pos_y, s.update_interval, s.name, s.backglass, s.timer, LightSequencer.init.is_locked, LightSequencer.init.editor_layer, LightSequencer.init.editor_layer_name, LightSequencer.init.editor_layer_visibility, LightSequencer.init.part_group_name⟩
    (bool_rt.req trivial rfl) rfl ?_
  refine .segTo ⟨s.center, s.collection, s.pos_x, s.pos_y, s.update_interval, s.name, s.backglass, s.timer, s.is_locked, LightSequencer.init.editor_layer, LightSequencer.init.editor_layer_name, LightSequencer.init.editor_layer_visibility, LightSequencer.init.part_group_name⟩
    (bool_rt.opt (fun v (s : LightSequencer) => { s with is_locked := v }) (fun _ _ => trivial) rfl rfl) rfl ?_
  refine .segTo ⟨s.center, s.collection, s.pos_x, s.pos_y, s.update_interval, s.name, s.backglass, s.timer, s.is_locked, LightSequencer.init.editor_layer, LightSequencer.init.editor_layer_name, LightSequencer.init.editor_layer_visibility, s.part_group_name⟩
    (string_rt.opt (fun v (s : LightSequencer) => { s with part_group_name := v }) h.part_group_name rfl rfl) rfl ?_
  refine .segTo ⟨s.center, s.collection, s.pos_x, s.pos_y, s.update_interval, s.name, s.backglass, s.timer, s.is_locked, s.editor_layer, LightSequencer.init.editor_layer_name, LightSequencer.init.editor_layer_visibility, s.part_group_name⟩
    (u32_rt.opt (fun v (s : LightSequencer) => { s with editor_layer := v }) (fun _ _ => trivial) rfl rfl) rfl ?_
  refine .segTo ⟨s.center, s.collection, s.pos_x, s.pos_y, s.update_interval, s.name, s.backglass, s.timer, s.is_locked, s.editor_layer, s.editor_layer_name, LightSequencer.init.editor_layer_visibility, s.part_group_name⟩
    (string_rt.opt (fun v (s : LightSequencer) => { s with editor_layer_name := v }) h.editor_layer_name rfl rfl) rfl ?_
  refine .segTo ⟨s.center, s.collection, s.pos_x, s.pos_y, s.update_interval, s.name, s.backglass, s.timer, s.is_locked, s.editor_layer, s.editor_layer_name, s.editor_layer_visibility, s.part_group_name⟩
    (bool_rt.opt (fun v (s : LightSequencer) => { s with editor_layer_visibility := v }) (fun _ _ => trivial) rfl rfl) rfl ?_
  exact .done rfl

theorem LightSequencer.arms_inv : ArmsInv LightSequencer.WF LightSequencer.arms := by
  unfold LightSequencer.arms
  exact (.append (.cons (.fld GP.any fun _ _ h _ => ⟨h.collection, h.name, h.part_group_name, h.editor_layer_name⟩) <|
    .cons (.fld wide_gp fun _ _ h hv => ⟨hv, h.name, h.part_group_name, h.editor_layer_name⟩) <|
    .cons (.fld GP.any fun _ _ h _ => ⟨h.collection, h.name, h.part_group_name, h.editor_layer_name⟩) <|
    .cons (.fld GP.any fun _ _ h _ => ⟨h.collection, h.name, h.part_group_name, h.editor_layer_name⟩) <|
    .cons (.fld GP.any fun _ _ h _ => ⟨h.collection, h.name, h.part_group_name, h.editor_layer_name⟩) <|
    .cons (.fld wide_gp fun _ _ h hv => ⟨h.collection, hv, h.part_group_name, h.editor_layer_name⟩) <|
    .cons (.fld GP.any fun _ _ h _ => ⟨h.collection, h.name, h.part_group_name, h.editor_layer_name⟩) <|
    .cons (.fld GP.any fun _ _ h _ => ⟨h.collection, h.name, h.part_group_name, h.editor_layer_name⟩) <|
    .cons (.fld GP.any fun _ _ h _ => ⟨h.collection, h.name, h.part_group_name, h.editor_layer_name⟩) <|
    .cons (.fld string_gp fun _ _ h hv => ⟨h.collection, h.name, h.part_group_name, .some hv⟩) <|
    .cons (.fld GP.any fun _ _ h _ => ⟨h.collection, h.name, h.part_group_name, h.editor_layer_name⟩) <|
    .cons (.fld string_gp fun _ _ h hv => ⟨h.collection, h.name, .some hv, h.editor_layer_name⟩) .nil)
    (timerArms_inv fun _ _ h => ⟨h.collection, h.name, h.part_group_name, h.editor_layer_name⟩))

theorem LightSequencer.init_wf : LightSequencer.WF LightSequencer.init where
  collection := by decide
  name := by decide
  part_group_name := .none
  editor_layer_name := .none

theorem LightSequencer.arms_tame : ArmsTame LightSequencer.arms := by
  unfold LightSequencer.arms
  exact (.append (.cons (fun _ => vertex2d_tame.fld) <|
    .cons (fun _ => wide_tame.fld) <|
    .cons (fun _ => f32_tame.fld) <|
    .cons (fun _ => f32_tame.fld) <|
    .cons (fun _ => u32_tame.fld) <|
    .cons (fun _ => wide_tame.fld) <|
    .cons (fun _ => bool_tame.fld) <|
    .cons (fun _ => bool_tame.fld) <|
    .cons (fun _ => u32_tame.fld) <|
    .cons (fun _ => string_tame.fld) <|
    .cons (fun _ => bool_tame.fld) <|
    .cons (fun _ => string_tame.fld) .nil) (timerArms_tame _))

end Vpin
