import Verif.Lemmas.Enums
import Verif.Lemmas.Tame
import Verif.Lemmas.ItemData
/-
`Ball`: reading back what was written, and what the reader guarantees for every input.
Generated by tools/gen_items.py.
-/
namespace Vpin


theorem Ball.reads {s : Ball} (h : s.WF) : OReads Ball.arms s.ops Ball.init s := by
  unfold Ball.ops
  refine .segTo ⟨Ball.init.name, s.pos, Ball.init.radius, Ball.init.mass, Ball.init.force_reflection, Ball.init.decal_mode, Ball.init.image, Ball.init.image_decal, Ball.init.bulb_intensity_scale, Ball.init.playfield_reflection_strength, Ball.init.color, Ball.init.spherical_mapping, Ball.init.is_reflection_enabled, Ball.init.timer, Ball.init.shared⟩
    (vertex3du_rt.req trivial rfl) rfl ?_
  refine .segTo ⟨Ball.init.name, s.pos, s.radius, Ball.init.mass, Ball.init.force_reflection, Ball.init.decal_mode, Ball.init.image, Ball.init.image_decal, Ball.init.bulb_intensity_scale, Ball.init.playfield_reflection_strength, Ball.init.color, Ball.init.spherical_mapping, Ball.init.is_reflection_enabled, Ball.init.timer, Ball.init.shared⟩
    (f32_rt.req trivial rfl) rfl ?_
  refine .segTo ⟨Ball.init.name, s.pos, s.radius, s.mass, Ball.init.force_reflection, Ball.init.decal_mode, Ball.init.image, Ball.init.image_decal, Ball.init.bulb_intensity_scale, Ball.init.playfield_reflection_strength, Ball.init.color, Ball.init.spherical_mapping, Ball.init.is_reflection_enabled, Ball.init.timer, Ball.init.shared⟩
    (f32_rt.req trivial rfl) rfl ?_
  refine .segTo ⟨Ball.init.name, s.pos, s.radius, s.mass, s.force_reflection, Ball.init.decal_mode, Ball.init.image, Ball.init.image_decal, Ball.init.bulb_intensity_scale, Ball.init.playfield_reflection_strength, Ball.init.color, Ball.init.spherical_mapping, Ball.init.is_reflection_enabled, Ball.init.timer, Ball.init.shared⟩
    (bool_rt.req trivial rfl) rfl ?_
  refine .segTo ⟨Ball.init.name, s.pos, s.radius, s.mass, s.force_reflection, s.decal_mode, Ball.init.image, Ball.init.image_decal, Ball.init.bulb_intensity_scale, Ball.init.playfield_reflection_strength, Ball.init.color, Ball.init.spherical_mapping, Ball.init.is_reflection_enabled, Ball.init.timer, Ball.init.shared⟩
    (bool_rt.req trivial rfl) rfl ?_
  refine .segTo ⟨Ball.init.name, s.pos, s.radius, s.mass, s.force_reflection, s.decal_mode, s.image, Ball.init.image_decal, Ball.init.bulb_intensity_scale, Ball.init.playfield_reflection_strength, Ball.init.color, Ball.init.spherical_mapping, Ball.init.is_reflection_enabled, Ball.init.timer, Ball.init.shared⟩
    (string_rt.req h.image rfl) rfl ?_
  refine .segTo ⟨Ball.init.name, s.pos, s.radius, s.mass, s.force_reflection, s.decal_mode, s.image, s.image_decal, Ball.init.bulb_intensity_scale, Ball.init.playfield_reflection_strength, Ball.init.color, Ball.init.spherical_mapping, Ball.init.is_reflection_enabled, Ball.init.timer, Ball.init.shared⟩
    (string_rt.req h.image_decal rfl) rfl ?_
  refine .segTo ⟨Ball.init.name, s.pos, s.radius, s.mass, s.force_reflection, s.decal_mode, s.image, s.image_decal, s.bulb_intensity_scale, Ball.init.playfield_reflection_strength, Ball.init.color, Ball.init.spherical_mapping, Ball.init.is_reflection_enabled, Ball.init.timer, Ball.init.shared⟩
    (f32_rt.req trivial rfl) rfl ?_
  refine .segTo ⟨Ball.init.name, s.pos, s.radius, s.mass, s.force_reflection, s.decal_mode, s.image, s.image_decal, s.bulb_intensity_scale, s.playfield_reflection_strength, Ball.init.color, Ball.init.spherical_mapping, Ball.init.is_reflection_enabled, Ball.init.timer, Ball.init.shared⟩
    (f32_rt.req trivial rfl) rfl ?_
  refine .segTo ⟨Ball.init.name, s.pos, s.radius, s.mass, s.force_reflection, s.decal_mode, s.image, s.image_decal, s.bulb_intensity_scale, s.playfield_reflection_strength, s.color, Ball.init.spherical_mapping, Ball.init.is_reflection_enabled, Ball.init.timer, Ball.init.shared⟩
    (color_rt.req trivial rfl) rfl ?_
  refine .segTo ⟨Ball.init.name, s.pos, s.radius, s.mass, s.force_reflection, s.decal_mode, s.image, s.image_decal, s.bulb_intensity_scale, s.playfield_reflection_strength, s.color, s.spherical_mapping, Ball.init.is_reflection_enabled, Ball.init.timer, Ball.init.shared⟩
    (bool_rt.req trivial rfl) rfl ?_
  refine .segTo ⟨Ball.init.name, s.pos, s.radius, s.mass, s.force_reflection, s.decal_mode, s.image, s.image_decal, s.bulb_intensity_scale, s.playfield_reflection_strength, s.color, s.spherical_mapping, s.is_reflection_enabled, Ball.init.timer, Ball.init.shared⟩
    (bool_rt.req trivial rfl) rfl ?_
  refine .segTo ⟨Ball.init.name, s.pos, s.radius, s.mass, s.force_reflection, s.decal_mode, s.image, s.image_decal, s.bulb_intensity_scale, s.playfield_reflection_strength, s.color, s.spherical_mapping, s.is_reflection_enabled, s.timer, Ball.init.shared⟩
    (timer_reads (L := Ball.timerL) ⟨fun _ _ => rfl, fun _ _ _ => rfl, fun _ => rfl⟩ rfl rfl) rfl ?_
  refine .segTo ⟨s.name, s.pos, s.radius, s.mass, s.force_reflection, s.decal_mode, s.image, s.image_decal, s.bulb_intensity_scale, s.playfield_reflection_strength, s.color, s.spherical_mapping, s.is_reflection_enabled, s.timer, Ball.init.shared⟩
    (wide_rt.req h.name rfl) rfl ?_
  refine .segTo ⟨s.name, s.pos, s.radius, s.mass, s.force_reflection, s.decal_mode, s.image, s.image_decal, s.bulb_intensity_scale, s.playfield_reflection_strength, s.color, s.spherical_mapping, s.is_reflection_enabled, s.timer, s.shared⟩
    (shared_reads (L := Ball.sharedL) ⟨fun _ _ => rfl, fun _ _ _ => rfl, fun _ => rfl⟩ h.shared rfl rfl rfl rfl rfl rfl) rfl ?_
  exact .done rfl

theorem Ball.arms_inv : ArmsInv Ball.WF Ball.arms := by
  unfold Ball.arms
  exact (.append (.append (.cons (.fld GP.any fun _ _ h _ => ⟨h.image, h.image_decal, h.name, h.shared⟩) <|
    .cons (.fld GP.any fun _ _ h _ => ⟨h.image, h.image_decal, h.name, h.shared⟩) <|
    .cons (.fld GP.any fun _ _ h _ => ⟨h.image, h.image_decal, h.name, h.shared⟩) <|
    .cons (.fld GP.any fun _ _ h _ => ⟨h.image, h.image_decal, h.name, h.shared⟩) <|
    .cons (.fld GP.any fun _ _ h _ => ⟨h.image, h.image_decal, h.name, h.shared⟩) <|
    .cons (.fld string_gp fun _ _ h hv => ⟨hv, h.image_decal, h.name, h.shared⟩) <|
    .cons (.fld string_gp fun _ _ h hv => ⟨h.image, hv, h.name, h.shared⟩) <|
    .cons (.fld GP.any fun _ _ h _ => ⟨h.image, h.image_decal, h.name, h.shared⟩) <|
    .cons (.fld GP.any fun _ _ h _ => ⟨h.image, h.image_decal, h.name, h.shared⟩) <|
    .cons (.fld GP.any fun _ _ h _ => ⟨h.image, h.image_decal, h.name, h.shared⟩) <|
    .cons (.fld GP.any fun _ _ h _ => ⟨h.image, h.image_decal, h.name, h.shared⟩) <|
    .cons (.fld GP.any fun _ _ h _ => ⟨h.image, h.image_decal, h.name, h.shared⟩) <|
    .cons (.fld wide_gp fun _ _ h hv => ⟨h.image, h.image_decal, hv, h.shared⟩) .nil)
    (timerArms_inv fun _ _ h => ⟨h.image, h.image_decal, h.name, h.shared⟩))
    (sharedArms_inv (fun _ h => h.shared) fun _ _ h ha => ⟨h.image, h.image_decal, h.name, ha⟩))

theorem Ball.init_wf : Ball.WF Ball.init where
  image := by decide
  image_decal := by decide
  name := by decide
  shared := ⟨.none, .none⟩

theorem Ball.arms_tame : ArmsTame Ball.arms := by
  unfold Ball.arms
  exact (.append (.append (.cons (fun _ => vertex3du_tame.fld) <|
    .cons (fun _ => f32_tame.fld) <|
    .cons (fun _ => f32_tame.fld) <|
    .cons (fun _ => bool_tame.fld) <|
    .cons (fun _ => bool_tame.fld) <|
    .cons (fun _ => string_tame.fld) <|
    .cons (fun _ => string_tame.fld) <|
    .cons (fun _ => f32_tame.fld) <|
    .cons (fun _ => f32_tame.fld) <|
    .cons (fun _ => color_tame.fld) <|
    .cons (fun _ => bool_tame.fld) <|
    .cons (fun _ => bool_tame.fld) <|
    .cons (fun _ => wide_tame.fld) .nil) (timerArms_tame _)) (sharedArms_tame _))

end Vpin
