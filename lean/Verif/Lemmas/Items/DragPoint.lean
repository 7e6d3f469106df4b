import Verif.Lemmas.Enums
import Verif.Lemmas.Tame
import Verif.Lemmas.ItemData
/-
`DragPoint`: reading back what was written, and what the reader guarantees for every input.
Generated by tools/gen_items.py.
-/
namespace Vpin


theorem DragPoint.reads {s : DragPoint} (h : s.WF) : OReads DragPoint.arms s.ops DragPoint.init s := by
  unfold DragPoint.ops
  refine .segTo ⟨s.x, s.y, DragPoint.init.z, DragPoint.init.smooth, DragPoint.init.is_slingshot, DragPoint.init.has_auto_texture, DragPoint.init.tex_coord, DragPoint.init.is_locked, DragPoint.init.editor_layer, DragPoint.init.editor_layer_name, DragPoint.init.editor_layer_visibility⟩
    (vertex2d_rt.req trivial rfl) rfl ?_
  refine .segTo ⟨s.x, s.y, s.z, DragPoint.init.smooth, DragPoint.init.is_slingshot, DragPoint.init.has_auto_texture, DragPoint.init.tex_coord, DragPoint.init.is_locked, DragPoint.init.editor_layer, DragPoint.init.editor_layer_name, DragPoint.init.editor_layer_visibility⟩
    (f32_rt.req trivial rfl) rfl ?_
  refine .segTo ⟨s.x, s.y, s.z, s.smooth, DragPoint.init.is_slingshot, DragPoint.init.has_auto_texture, DragPoint.init.tex_coord, DragPoint.init.is_locked, DragPoint.init.editor_layer, DragPoint.init.editor_layer_name, DragPoint.init.editor_layer_visibility⟩
    (bool_rt.req trivial rfl) rfl ?_
  refine .segTo ⟨s.x, s.y, s.z, s.smooth, s.is_slingshot, DragPoint.init.has_auto_texture, DragPoint.init.tex_coord, DragPoint.init.is_locked, DragPoint.init.editor_layer, DragPoint.init.editor_layer_name, DragPoint.init.editor_layer_visibility⟩
    (bool_rt.opt (fun v (s : DragPoint) => { s with is_slingshot := v }) (fun _ _ => trivial) rfl rfl) rfl ?_
  refine .segTo ⟨s.x, s.y, s.z, s.smooth, s.is_slingshot, s.has_auto_texture, DragPoint.init.tex_coord, DragPoint.init.is_locked, DragPoint.init.editor_layer, DragPoint.init.editor_layer_name, DragPoint.init.editor_layer_visibility⟩
    (bool_rt.req trivial rfl) rfl ?_
  refine .segTo ⟨s.x, s.y, s.z, s.smooth, s.is_slingshot, s.has_auto_texture, s.tex_coord, DragPoint.init.is_locked, DragPoint.init.editor_layer, DragPoint.init.editor_layer_name, DragPoint.init.editor_layer_visibility⟩
    (f32_rt.req trivial rfl) rfl ?_
  refine .segTo ⟨s.x, s.y, s.z, s.smooth, s.is_slingshot, s.has_auto_texture, s.tex_coord, s.is_locked, DragPoint.init.editor_layer, DragPoint.init.editor_layer_name, DragPoint.init.editor_layer_visibility⟩
    (bool_rt.req trivial rfl) rfl ?_
  refine .segTo ⟨s.x, s.y, s.z, s.smooth, s.is_slingshot, s.has_auto_texture, s.tex_coord, s.is_locked, s.editor_layer, DragPoint.init.editor_layer_name, DragPoint.init.editor_layer_visibility⟩
    (u32_rt.opt (fun v (s : DragPoint) => { s with editor_layer := v }) (fun _ _ => trivial) rfl rfl) rfl ?_
  refine .segTo ⟨s.x, s.y, s.z, s.smooth, s.is_slingshot, s.has_auto_texture, s.tex_coord, s.is_locked, s.editor_layer, s.editor_layer_name, DragPoint.init.editor_layer_visibility⟩
    (string_rt.opt (fun v (s : DragPoint) => { s with editor_layer_name := v }) h.editor_layer_name rfl rfl) rfl ?_
  refine .segTo ⟨s.x, s.y, s.z, s.smooth, s.is_slingshot, s.has_auto_texture, s.tex_coord, s.is_locked, s.editor_layer, s.editor_layer_name, s.editor_layer_visibility⟩
    (bool_rt.opt (fun v (s : DragPoint) => { s with editor_layer_visibility := v }) (fun _ _ => trivial) rfl rfl) rfl ?_
  exact .done rfl

theorem DragPoint.arms_inv : ArmsInv DragPoint.WF DragPoint.arms := by
  unfold DragPoint.arms
  exact (.cons (.fld GP.any fun _ _ h _ => ⟨h.editor_layer_name⟩) <|
    .cons (.fld GP.any fun _ _ h _ => ⟨h.editor_layer_name⟩) <|
    .cons (.fld GP.any fun _ _ h _ => ⟨h.editor_layer_name⟩) <|
    .cons (.fld GP.any fun _ _ h _ => ⟨h.editor_layer_name⟩) <|
    .cons (.fld GP.any fun _ _ h _ => ⟨h.editor_layer_name⟩) <|
    .cons (.fld GP.any fun _ _ h _ => ⟨h.editor_layer_name⟩) <|
    .cons (.fld GP.any fun _ _ h _ => ⟨h.editor_layer_name⟩) <|
    .cons (.fld GP.any fun _ _ h _ => ⟨h.editor_layer_name⟩) <|
    .cons (.fld string_gp fun _ _ h hv => ⟨.some hv⟩) <|
    .cons (.fld GP.any fun _ _ h _ => ⟨h.editor_layer_name⟩) .nil)

theorem DragPoint.init_wf : DragPoint.WF DragPoint.init where
  editor_layer_name := .none

theorem DragPoint.arms_tame : ArmsTame DragPoint.arms := by
  unfold DragPoint.arms
  exact (.cons (fun _ => vertex2d_tame.fld) <|
    .cons (fun _ => f32_tame.fld) <|
    .cons (fun _ => bool_tame.fld) <|
    .cons (fun _ => bool_tame.fld) <|
    .cons (fun _ => bool_tame.fld) <|
    .cons (fun _ => f32_tame.fld) <|
    .cons (fun _ => bool_tame.fld) <|
    .cons (fun _ => u32_tame.fld) <|
    .cons (fun _ => string_tame.fld) <|
    .cons (fun _ => bool_tame.fld) .nil)

end Vpin
