import Verif.Lemmas.Enums
import Verif.Lemmas.Tame
import Verif.Lemmas.ItemData
/-
`Decal`: reading back what was written, and what the reader guarantees for every input.
Generated by tools/gen_items.py.
-/
namespace Vpin


theorem Decal.reads {s : Decal} (h : s.WF) : OReads Decal.arms s.ops Decal.init s := by
  unfold Decal.ops
  refine .segTo ⟨s.center, Decal.init.width, Decal.init.height, Decal.init.rotation, Decal.init.image, Decal.init.surface, Decal.init.name, Decal.init.text, Decal.init.decal_type, Decal.init.material, Decal.init.color, Decal.init.sizing_type, Decal.init.vertical_text, Decal.init.backglass, Decal.init.font, Decal.init.shared⟩
    (vertex2d_rt.req trivial rfl) rfl ?_
  refine .segTo ⟨s.center, s.width, Decal.init.height, Decal.init.rotation, Decal.init.image, Decal.init.surface, Decal.init.name, Decal.init.text, Decal.init.decal_type, Decal.init.material, Decal.init.color, Decal.init.sizing_type, Decal.init.vertical_text, Decal.init.backglass, Decal.init.font, Decal.init.shared⟩
    (f32_rt.req trivial rfl) rfl ?_
  refine .segTo ⟨s.center, s.width, s.height, Decal.init.rotation, Decal.init.image, Decal.init.surface, Decal.init.name, Decal.init.text, Decal.init.decal_type, Decal.init.material, Decal.init.color, Decal.init.sizing_type, Decal.init.vertical_text, Decal.init.backglass, Decal.init.font, Decal.init.shared⟩
    (f32_rt.req trivial rfl) rfl ?_
  refine .segTo ⟨s.center, s.width, s.height, s.rotation, Decal.init.image, Decal.init.surface, Decal.init.name, Decal.init.text, Decal.init.decal_type, Decal.init.material, Decal.init.color, Decal.init.sizing_type, Decal.init.vertical_text, Decal.init.backglass, Decal.init.font, Decal.init.shared⟩
    (f32_rt.req trivial rfl) rfl ?_
  refine .segTo ⟨s.center, s.width, s.height, s.rotation, s.image, Decal.init.surface, Decal.init.name, Decal.init.text, Decal.init.decal_type, Decal.init.material, Decal.init.color, Decal.init.sizing_type, Decal.init.vertical_text, Decal.init.backglass, Decal.init.font, Decal.init.shared⟩
    (string_rt.req h.image rfl) rfl ?_
  refine .segTo ⟨s.center, s.width, s.height, s.rotation, s.image, s.surface, Decal.init.name, Decal.init.text, Decal.init.decal_type, Decal.init.material, Decal.init.color, Decal.init.sizing_type, Decal.init.vertical_text, Decal.init.backglass, Decal.init.font, Decal.init.shared⟩
    (string_rt.req h.surface rfl) rfl ?_
  refine .segTo ⟨s.center, s.width, s.height, s.rotation, s.image, s.surface, s.name, Decal.init.text, Decal.init.decal_type, Decal.init.material, Decal.init.color, Decal.init.sizing_type, Decal.init.vertical_text, Decal.init.backglass, Decal.init.font, Decal.init.shared⟩
    (wide_rt.req h.name rfl) rfl ?_
  refine .segTo ⟨s.center, s.width, s.height, s.rotation, s.image, s.surface, s.name, s.text, Decal.init.decal_type, Decal.init.material, Decal.init.color, Decal.init.sizing_type, Decal.init.vertical_text, Decal.init.backglass, Decal.init.font, Decal.init.shared⟩
    (string_rt.req h.text rfl) rfl ?_
  refine .segTo ⟨s.center, s.width, s.height, s.rotation, s.image, s.surface, s.name, s.text, s.decal_type, Decal.init.material, Decal.init.color, Decal.init.sizing_type, Decal.init.vertical_text, Decal.init.backglass, Decal.init.font, Decal.init.shared⟩
    (DecalType.rt.req trivial rfl) rfl ?_
  refine .segTo ⟨s.center, s.width, s.height, s.rotation, s.image, s.surface, s.name, s.text, s.decal_type, s.material, Decal.init.color, Decal.init.sizing_type, Decal.init.vertical_text, Decal.init.backglass, Decal.init.font, Decal.init.shared⟩
    (string_rt.req h.material rfl) rfl ?_
  refine .segTo ⟨s.center, s.width, s.height, s.rotation, s.image, s.surface, s.name, s.text, s.decal_type, s.material, s.color, Decal.init.sizing_type, Decal.init.vertical_text, Decal.init.backglass, Decal.init.font, Decal.init.shared⟩
    (color_rt.req trivial rfl) rfl ?_
  refine .segTo ⟨s.center, s.width, s.height, s.rotation, s.image, s.surface, s.name, s.text, s.decal_type, s.material, s.color, s.sizing_type, Decal.init.vertical_text, Decal.init.backglass, Decal.init.font, Decal.init.shared⟩
    (SizingType.rt.req trivial rfl) rfl ?_
  refine .segTo ⟨s.center, s.width, s.height, s.rotation, s.image, s.surface, s.name, s.text, s.decal_type, s.material, s.color, s.sizing_type, s.vertical_text, Decal.init.backglass, Decal.init.font, Decal.init.shared⟩
    (bool_rt.req trivial rfl) rfl ?_
  refine .segTo ⟨s.center, s.width, s.height, s.rotation, s.image, s.surface, s.name, s.text, s.decal_type, s.material, s.color, s.sizing_type, s.vertical_text, s.backglass, Decal.init.font, Decal.init.shared⟩
    (bool_rt.req trivial rfl) rfl ?_
  refine .segTo ⟨s.center, s.width, s.height, s.rotation, s.image, s.surface, s.name, s.text, s.decal_type, s.material, s.color, s.sizing_type, s.vertical_text, s.backglass, Decal.init.font, s.shared⟩
    (shared_reads (L := Decal.sharedL) ⟨fun _ _ => rfl, fun _ _ _ => rfl, fun _ => rfl⟩ h.shared rfl rfl rfl rfl rfl rfl) rfl ?_
  refine .segTo ⟨s.center, s.width, s.height, s.rotation, s.image, s.surface, s.name, s.text, s.decal_type, s.material, s.color, s.sizing_type, s.vertical_text, s.backglass, s.font, s.shared⟩
    (font_rt.req h.font rfl) rfl ?_
  exact .done rfl

theorem Decal.arms_inv : ArmsInv Decal.WF Decal.arms := by
  unfold Decal.arms
  exact (.append (.cons (.fld GP.any fun _ _ h _ => ⟨h.image, h.surface, h.name, h.text, h.material, h.shared, h.font⟩) <|
    .cons (.fld GP.any fun _ _ h _ => ⟨h.image, h.surface, h.name, h.text, h.material, h.shared, h.font⟩) <|
    .cons (.fld GP.any fun _ _ h _ => ⟨h.image, h.surface, h.name, h.text, h.material, h.shared, h.font⟩) <|
    .cons (.fld GP.any fun _ _ h _ => ⟨h.image, h.surface, h.name, h.text, h.material, h.shared, h.font⟩) <|
    .cons (.fld string_gp fun _ _ h hv => ⟨hv, h.surface, h.name, h.text, h.material, h.shared, h.font⟩) <|
    .cons (.fld string_gp fun _ _ h hv => ⟨h.image, hv, h.name, h.text, h.material, h.shared, h.font⟩) <|
    .cons (.fld wide_gp fun _ _ h hv => ⟨h.image, h.surface, hv, h.text, h.material, h.shared, h.font⟩) <|
    .cons (.fld string_gp fun _ _ h hv => ⟨h.image, h.surface, h.name, hv, h.material, h.shared, h.font⟩) <|
    .cons (.fld GP.any fun _ _ h _ => ⟨h.image, h.surface, h.name, h.text, h.material, h.shared, h.font⟩) <|
    .cons (.fld string_gp fun _ _ h hv => ⟨h.image, h.surface, h.name, h.text, hv, h.shared, h.font⟩) <|
    .cons (.fld GP.any fun _ _ h _ => ⟨h.image, h.surface, h.name, h.text, h.material, h.shared, h.font⟩) <|
    .cons (.fld GP.any fun _ _ h _ => ⟨h.image, h.surface, h.name, h.text, h.material, h.shared, h.font⟩) <|
    .cons (.fld GP.any fun _ _ h _ => ⟨h.image, h.surface, h.name, h.text, h.material, h.shared, h.font⟩) <|
    .cons (.fld GP.any fun _ _ h _ => ⟨h.image, h.surface, h.name, h.text, h.material, h.shared, h.font⟩) <|
    .cons (.fld font_gp fun _ _ h hv => ⟨h.image, h.surface, h.name, h.text, h.material, h.shared, hv⟩) .nil)
    (sharedArms_inv (fun _ h => h.shared) fun _ _ h ha => ⟨h.image, h.surface, h.name, h.text, h.material, ha, h.font⟩))

theorem Decal.init_wf : Decal.WF Decal.init where
  image := by decide
  surface := by decide
  name := by decide
  text := by decide
  material := by decide
  shared := ⟨.none, .none⟩
  font := by decide

theorem Decal.arms_tame : ArmsTame Decal.arms := by
  unfold Decal.arms
  exact (.append (.cons (fun _ => vertex2d_tame.fld) <|
    .cons (fun _ => f32_tame.fld) <|
    .cons (fun _ => f32_tame.fld) <|
    .cons (fun _ => f32_tame.fld) <|
    .cons (fun _ => string_tame.fld) <|
    .cons (fun _ => string_tame.fld) <|
    .cons (fun _ => wide_tame.fld) <|
    .cons (fun _ => string_tame.fld) <|
    .cons (fun _ => enum_tame.fld) <|
    .cons (fun _ => string_tame.fld) <|
    .cons (fun _ => color_tame.fld) <|
    .cons (fun _ => enum_tame.fld) <|
    .cons (fun _ => bool_tame.fld) <|
    .cons (fun _ => bool_tame.fld) <|
    .cons (fun _ => font_tame.fld) .nil) (sharedArms_tame _))

end Vpin
