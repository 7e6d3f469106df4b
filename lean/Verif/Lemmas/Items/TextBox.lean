import Verif.Lemmas.Enums
import Verif.Lemmas.Tame
import Verif.Lemmas.ItemData
/-
`TextBox`: reading back what was written, and what the reader guarantees for every input.
Generated by tools/gen_items.py.
-/
namespace Vpin


theorem TextBox.reads {s : TextBox} (h : s.WF) : OReads TextBox.arms s.ops TextBox.init s := by
  unfold TextBox.ops
  refine .segTo ⟨s.ver1, TextBox.init.ver2, TextBox.init.back_color, TextBox.init.font_color, TextBox.init.intensity_scale, TextBox.init.text, TextBox.init.name, TextBox.init.align, TextBox.init.is_transparent, TextBox.init.is_dmd, TextBox.init.font, TextBox.init.timer, TextBox.init.shared⟩
    (vertex2d_rt.req trivial rfl) rfl ?_
  refine .segTo ⟨s.ver1, s.ver2, TextBox.init.back_color, TextBox.init.font_color, TextBox.init.intensity_scale, TextBox.init.text, TextBox.init.name, TextBox.init.align, TextBox.init.is_transparent, TextBox.init.is_dmd, TextBox.init.font, TextBox.init.timer, TextBox.init.shared⟩
    (vertex2d_rt.req trivial rfl) rfl ?_
  refine .segTo ⟨s.ver1, s.ver2, s.back_color, TextBox.init.font_color, TextBox.init.intensity_scale, TextBox.init.text, TextBox.init.name, TextBox.init.align, TextBox.init.is_transparent, TextBox.init.is_dmd, TextBox.init.font, TextBox.init.timer, TextBox.init.shared⟩
    (color_rt.req trivial rfl) rfl ?_
  refine .segTo ⟨s.ver1, s.ver2, s.back_color, s.font_color, TextBox.init.intensity_scale, TextBox.init.text, TextBox.init.name, TextBox.init.align, TextBox.init.is_transparent, TextBox.init.is_dmd, TextBox.init.font, TextBox.init.timer, TextBox.init.shared⟩
    (color_rt.req trivial rfl) rfl ?_
  refine .segTo ⟨s.ver1, s.ver2, s.back_color, s.font_color, s.intensity_scale, TextBox.init.text, TextBox.init.name, TextBox.init.align, TextBox.init.is_transparent, TextBox.init.is_dmd, TextBox.init.font, TextBox.init.timer, TextBox.init.shared⟩
    (f32_rt.req trivial rfl) rfl ?_
  refine .segTo ⟨s.ver1, s.ver2, s.back_color, s.font_color, s.intensity_scale, s.text, TextBox.init.name, TextBox.init.align, TextBox.init.is_transparent, TextBox.init.is_dmd, TextBox.init.font, TextBox.init.timer, TextBox.init.shared⟩
    (string_rt.req h.text rfl) rfl ?_
  refine .segTo ⟨s.ver1, s.ver2, s.back_color, s.font_color, s.intensity_scale, s.text, TextBox.init.name, TextBox.init.align, TextBox.init.is_transparent, TextBox.init.is_dmd, TextBox.init.font, s.timer, TextBox.init.shared⟩
    (timer_reads (L := TextBox.timerL) ⟨fun _ _ => rfl, fun _ _ _ => rfl, fun _ => rfl⟩ rfl rfl) rfl ?_
  refine .segTo ⟨s.ver1, s.ver2, s.back_color, s.font_color, s.intensity_scale, s.text, s.name, TextBox.init.align, TextBox.init.is_transparent, TextBox.init.is_dmd, TextBox.init.font, s.timer, TextBox.init.shared⟩
    (wide_rt.req h.name rfl) rfl ?_
  refine .segTo ⟨s.ver1, s.ver2, s.back_color, s.font_color, s.intensity_scale, s.text, s.name, s.align, TextBox.init.is_transparent, TextBox.init.is_dmd, TextBox.init.font, s.timer, TextBox.init.shared⟩
    (TextAlignment.rt.req trivial rfl) rfl ?_
  refine .segTo ⟨s.ver1, s.ver2, s.back_color, s.font_color, s.intensity_scale, s.text, s.name, s.align, s.is_transparent, TextBox.init.is_dmd, TextBox.init.font, s.timer, TextBox.init.shared⟩
    (bool_rt.req trivial rfl) rfl ?_
  refine .segTo ⟨s.ver1, s.ver2, s.back_color, s.font_color, s.intensity_scale, s.text, s.name, s.align, s.is_transparent, s.is_dmd, TextBox.init.font, s.timer, TextBox.init.shared⟩
    (bool_rt.opt (fun v (s : TextBox) => { s with is_dmd := v }) (fun _ _ => trivial) rfl rfl) rfl ?_
  refine .segTo ⟨s.ver1, s.ver2, s.back_color, s.font_color, s.intensity_scale, s.text, s.name, s.align, s.is_transparent, s.is_dmd, TextBox.init.font, s.timer, s.shared⟩
    (shared_reads (L := TextBox.sharedL) ⟨fun _ _ => rfl, fun _ _ _ => rfl, fun _ => rfl⟩ h.shared rfl rfl rfl rfl rfl rfl) rfl ?_
  refine .segTo ⟨s.ver1, s.ver2, s.back_color, s.font_color, s.intensity_scale, s.text, s.name, s.align, s.is_transparent, s.is_dmd, s.font, s.timer, s.shared⟩
    (font_rt.req h.font rfl) rfl ?_
  exact .done rfl

theorem TextBox.arms_inv : ArmsInv TextBox.WF TextBox.arms := by
  unfold TextBox.arms
  exact (.append (.append (.cons (.fld GP.any fun _ _ h _ => ⟨h.text, h.name, h.shared, h.font⟩) <|
    .cons (.fld GP.any fun _ _ h _ => ⟨h.text, h.name, h.shared, h.font⟩) <|
    .cons (.fld GP.any fun _ _ h _ => ⟨h.text, h.name, h.shared, h.font⟩) <|
    .cons (.fld GP.any fun _ _ h _ => ⟨h.text, h.name, h.shared, h.font⟩) <|
    .cons (.fld GP.any fun _ _ h _ => ⟨h.text, h.name, h.shared, h.font⟩) <|
    .cons (.fld string_gp fun _ _ h hv => ⟨hv, h.name, h.shared, h.font⟩) <|
    .cons (.fld wide_gp fun _ _ h hv => ⟨h.text, hv, h.shared, h.font⟩) <|
    .cons (.fld GP.any fun _ _ h _ => ⟨h.text, h.name, h.shared, h.font⟩) <|
    .cons (.fld GP.any fun _ _ h _ => ⟨h.text, h.name, h.shared, h.font⟩) <|
    .cons (.fld GP.any fun _ _ h _ => ⟨h.text, h.name, h.shared, h.font⟩) <|
    .cons (.fld font_gp fun _ _ h hv => ⟨h.text, h.name, h.shared, hv⟩) .nil)
    (timerArms_inv fun _ _ h => ⟨h.text, h.name, h.shared, h.font⟩))
    (sharedArms_inv (fun _ h => h.shared) fun _ _ h ha => ⟨h.text, h.name, ha, h.font⟩))

theorem TextBox.init_wf : TextBox.WF TextBox.init where
  text := by decide
  name := by decide
  shared := ⟨.none, .none⟩
  font := by decide

theorem TextBox.arms_tame : ArmsTame TextBox.arms := by
  unfold TextBox.arms
  exact (.append (.append (.cons (fun _ => vertex2d_tame.fld) <|
    .cons (fun _ => vertex2d_tame.fld) <|
    .cons (fun _ => color_tame.fld) <|
    .cons (fun _ => color_tame.fld) <|
    .cons (fun _ => f32_tame.fld) <|
    .cons (fun _ => string_tame.fld) <|
    .cons (fun _ => wide_tame.fld) <|
    .cons (fun _ => enum_tame.fld) <|
    .cons (fun _ => bool_tame.fld) <|
    .cons (fun _ => bool_tame.fld) <|
    .cons (fun _ => font_tame.fld) .nil) (timerArms_tame _)) (sharedArms_tame _))

end Vpin
