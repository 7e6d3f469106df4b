import Verif.Lemmas.Enums
import Verif.Lemmas.Tame
import Verif.Lemmas.ItemData
/-
`PartGroup`: reading back what was written, and what the reader guarantees for every input.
Generated by tools/gen_items.py.
-/
namespace Vpin


theorem PartGroup.reads {s : PartGroup} (h : s.WF) : OReads PartGroup.arms s.ops PartGroup.init s := by
  unfold PartGroup.ops
  refine .segTo ⟨s.name, PartGroup.init.center, PartGroup.init.timer, PartGroup.init.backglass, PartGroup.init.visibility_mask, PartGroup.init.space_reference, PartGroup.init.player_mode_visibility_mask, PartGroup.init.is_locked, PartGroup.init.editor_layer_name, PartGroup.init.editor_layer_visibility⟩
    (wide_rt.req h.name rfl) rfl ?_
  refine .segTo ⟨s.name, s.center, PartGroup.init.timer, PartGroup.init.backglass, PartGroup.init.visibility_mask, PartGroup.init.space_reference, PartGroup.init.player_mode_visibility_mask, PartGroup.init.is_locked, PartGroup.init.editor_layer_name, PartGroup.init.editor_layer_visibility⟩
    (vertex2d_rt.req trivial rfl) rfl ?_
  refine .segTo ⟨s.name, s.center, s.timer, PartGroup.init.backglass, PartGroup.init.visibility_mask, PartGroup.init.space_reference, PartGroup.init.player_mode_visibility_mask, PartGroup.init.is_locked, PartGroup.init.editor_layer_name, PartGroup.init.editor_layer_visibility⟩
    (timer_reads (L := PartGroup.timerL) ⟨fun _ _ => rfl, fun _ _ _ => rfl, fun _ => rfl⟩ rfl rfl) rfl ?_
  refine .segTo ⟨s.name, s.center, s.timer, s.backglass, PartGroup.init.visibility_mask, PartGroup.init.space_reference, PartGroup.init.player_mode_visibility_mask, PartGroup.init.is_locked, PartGroup.init.editor_layer_name, PartGroup.init.editor_layer_visibility⟩
    (bool_rt.req trivial rfl) rfl ?_
  refine .segTo ⟨s.name, s.center, s.timer, s.backglass, s.visibility_mask, PartGroup.init.space_reference, PartGroup.init.player_mode_visibility_mask, PartGroup.init.is_locked, PartGroup.init.editor_layer_name, PartGroup.init.editor_layer_visibility⟩
    (u32_rt.opt (fun v (s : PartGroup) => { s with visibility_mask := v }) (fun _ _ => trivial) rfl rfl) rfl ?_
  refine .segTo ⟨s.name, s.center, s.timer, s.backglass, s.visibility_mask, PartGroup.init.space_reference, s.player_mode_visibility_mask, PartGroup.init.is_locked, PartGroup.init.editor_layer_name, PartGroup.init.editor_layer_visibility⟩
    (u32_rt.opt (fun v (s : PartGroup) => { s with player_mode_visibility_mask := v }) (fun _ _ => trivial) rfl rfl) rfl ?_
  refine .segTo ⟨s.name, s.center, s.timer, s.backglass, s.visibility_mask, s.space_reference, s.player_mode_visibility_mask, PartGroup.init.is_locked, PartGroup.init.editor_layer_name, PartGroup.init.editor_layer_visibility⟩
    (SpaceReference.rt.req trivial rfl) rfl ?_
  refine .segTo ⟨s.name, s.center, s.timer, s.backglass, s.visibility_mask, s.space_reference, s.player_mode_visibility_mask, s.is_locked, PartGroup.init.editor_layer_name, PartGroup.init.editor_layer_visibility⟩
    (bool_rt.req trivial rfl) rfl ?_
  refine .segTo ⟨s.name, s.center, s.timer, s.backglass, s.visibility_mask, s.space_reference, s.player_mode_visibility_mask, s.is_locked, PartGroup.init.editor_layer_name, s.editor_layer_visibility⟩
    (bool_rt.opt (fun v (s : PartGroup) => { s with editor_layer_visibility := v }) (fun _ _ => trivial) rfl rfl) rfl ?_
  refine .segTo ⟨s.name, s.center, s.timer, s.backglass, s.visibility_mask, s.space_reference, s.player_mode_visibility_mask, s.is_locked, s.editor_layer_name, s.editor_layer_visibility⟩
    (string_rt.opt (fun v (s : PartGroup) => { s with editor_layer_name := v }) h.editor_layer_name rfl rfl) rfl ?_
  exact .done rfl

theorem PartGroup.arms_inv : ArmsInv PartGroup.WF PartGroup.arms := by
  unfold PartGroup.arms
  exact (.append (.cons (.fld wide_gp fun _ _ h hv => ⟨hv, h.editor_layer_name⟩) <|
    .cons (.fld GP.any fun _ _ h _ => ⟨h.name, h.editor_layer_name⟩) <|
    .cons (.fld GP.any fun _ _ h _ => ⟨h.name, h.editor_layer_name⟩) <|
    .cons (.fld GP.any fun _ _ h _ => ⟨h.name, h.editor_layer_name⟩) <|
    .cons (.fld GP.any fun _ _ h _ => ⟨h.name, h.editor_layer_name⟩) <|
    .cons (.fld GP.any fun _ _ h _ => ⟨h.name, h.editor_layer_name⟩) <|
    .cons (.fld GP.any fun _ _ h _ => ⟨h.name, h.editor_layer_name⟩) <|
    .cons (.fld string_gp fun _ _ h hv => ⟨h.name, .some hv⟩) <|
    .cons (.fld GP.any fun _ _ h _ => ⟨h.name, h.editor_layer_name⟩) .nil)
    (timerArms_inv fun _ _ h => ⟨h.name, h.editor_layer_name⟩))

theorem PartGroup.init_wf : PartGroup.WF PartGroup.init where
  name := by decide
  editor_layer_name := .none

theorem PartGroup.arms_tame : ArmsTame PartGroup.arms := by
  unfold PartGroup.arms
  exact (.append (.cons (fun _ => wide_tame.fld) <|
    .cons (fun _ => vertex2d_tame.fld) <|
    .cons (fun _ => bool_tame.fld) <|
    .cons (fun _ => u32_tame.fld) <|
    .cons (fun _ => enum_tame.fld) <|
    .cons (fun _ => u32_tame.fld) <|
    .cons (fun _ => bool_tame.fld) <|
    .cons (fun _ => string_tame.fld) <|
    .cons (fun _ => bool_tame.fld) .nil) (timerArms_tame _))

end Vpin
