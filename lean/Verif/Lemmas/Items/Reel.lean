import Verif.Lemmas.Enums
import Verif.Lemmas.Tame
import Verif.Lemmas.ItemData
/-
`Reel`: reading back what was written, and what the reader guarantees for every input.
Generated by tools/gen_items.py.
-/
namespace Vpin


theorem Reel.reads {s : Reel} (h : s.WF) : OReads Reel.arms s.ops Reel.init s := by
  unfold Reel.ops
  refine .segTo ⟨s.ver1, Reel.init.ver2, Reel.init.back_color, Reel.init.is_transparent, Reel.init.image, Reel.init.sound, Reel.init.name, Reel.init.width, Reel.init.height, Reel.init.reel_count, Reel.init.reel_spacing, Reel.init.motor_steps, Reel.init.digit_range, Reel.init.update_interval, Reel.init.use_image_grid, Reel.init.is_visible, Reel.init.images_per_grid_row, Reel.init.timer, Reel.init.shared⟩
    (vertex2d_rt.req trivial rfl) rfl ?_
  refine .segTo ⟨s.ver1, s.ver2, Reel.init.back_color, Reel.init.is_transparent, Reel.init.image, Reel.init.sound, Reel.init.name, Reel.init.width, Reel.init.height, Reel.init.reel_count, Reel.init.reel_spacing, Reel.init.motor_steps, Reel.init.digit_range, Reel.init.update_interval, Reel.init.use_image_grid, Reel.init.is_visible, Reel.init.images_per_grid_row, Reel.init.timer, Reel.init.shared⟩
    (vertex2d_rt.req trivial rfl) rfl ?_
  refine .segTo ⟨s.ver1, s.ver2, s.back_color, Reel.init.is_transparent, Reel.init.image, Reel.init.sound, Reel.init.name, Reel.init.width, Reel.init.height, Reel.init.reel_count, Reel.init.reel_spacing, Reel.init.motor_steps, Reel.init.digit_range, Reel.init.update_interval, Reel.init.use_image_grid, Reel.init.is_visible, Reel.init.images_per_grid_row, Reel.init.timer, Reel.init.shared⟩
    (color_rt.req trivial rfl) rfl ?_
  refine .segTo ⟨s.ver1, s.ver2, s.back_color, Reel.init.is_transparent, Reel.init.image, Reel.init.sound, Reel.init.name, Reel.init.width, Reel.init.height, Reel.init.reel_count, Reel.init.reel_spacing, Reel.init.motor_steps, Reel.init.digit_range, Reel.init.update_interval, Reel.init.use_image_grid, Reel.init.is_visible, Reel.init.images_per_grid_row, s.timer, Reel.init.shared⟩
    (timer_reads (L := Reel.timerL) ⟨fun _ _ => rfl, fun _ _ _ => rfl, fun _ => rfl⟩ rfl rfl) rfl ?_
  refine .segTo ⟨s.ver1, s.ver2, s.back_color, s.is_transparent, Reel.init.image, Reel.init.sound, Reel.init.name, Reel.init.width, Reel.init.height, Reel.init.reel_count, Reel.init.reel_spacing, Reel.init.motor_steps, Reel.init.digit_range, Reel.init.update_interval, Reel.init.use_image_grid, Reel.init.is_visible, Reel.init.images_per_grid_row, s.timer, Reel.init.shared⟩
    (bool_rt.req trivial rfl) rfl ?_
  refine .segTo ⟨s.ver1, s.ver2, s.back_color, s.is_transparent, s.image, Reel.init.sound, Reel.init.name, Reel.init.width, Reel.init.height, Reel.init.reel_count, Reel.init.reel_spacing, Reel.init.motor_steps, Reel.init.digit_range, Reel.init.update_interval, Reel.init.use_image_grid, Reel.init.is_visible, Reel.init.images_per_grid_row, s.timer, Reel.init.shared⟩
    (string_rt.req h.image rfl) rfl ?_
  refine .segTo ⟨s.ver1, s.ver2, s.back_color, s.is_transparent, s.image, s.sound, Reel.init.name, Reel.init.width, Reel.init.height, Reel.init.reel_count, Reel.init.reel_spacing, Reel.init.motor_steps, Reel.init.digit_range, Reel.init.update_interval, Reel.init.use_image_grid, Reel.init.is_visible, Reel.init.images_per_grid_row, s.timer, Reel.init.shared⟩
    (string_rt.req h.sound rfl) rfl ?_
  refine .segTo ⟨s.ver1, s.ver2, s.back_color, s.is_transparent, s.image, s.sound, s.name, Reel.init.width, Reel.init.height, Reel.init.reel_count, Reel.init.reel_spacing, Reel.init.motor_steps, Reel.init.digit_range, Reel.init.update_interval, Reel.init.use_image_grid, Reel.init.is_visible, Reel.init.images_per_grid_row, s.timer, Reel.init.shared⟩
    (wide_rt.req h.name rfl) rfl ?_
  refine .segTo ⟨s.ver1, s.ver2, s.back_color, s.is_transparent, s.image, s.sound, s.name, s.width, Reel.init.height, Reel.init.reel_count, Reel.init.reel_spacing, Reel.init.motor_steps, Reel.init.digit_range, Reel.init.update_interval, Reel.init.use_image_grid, Reel.init.is_visible, Reel.init.images_per_grid_row, s.timer, Reel.init.shared⟩
    (f32_rt.req trivial rfl) rfl ?_
  refine .segTo ⟨s.ver1, s.ver2, s.back_color, s.is_transparent, s.image, s.sound, s.name, s.width, s.height, Reel.init.reel_count, Reel.init.reel_spacing, Reel.init.motor_steps, Reel.init.digit_range, Reel.init.update_interval, Reel.init.use_image_grid, Reel.init.is_visible, Reel.init.images_per_grid_row, s.timer, Reel.init.shared⟩
    (f32_rt.req trivial rfl) rfl ?_
  refine .segTo ⟨s.ver1, s.ver2, s.back_color, s.is_transparent, s.image, s.sound, s.name, s.width, s.height, s.reel_count, Reel.init.reel_spacing, Reel.init.motor_steps, Reel.init.digit_range, Reel.init.update_interval, Reel.init.use_image_grid, Reel.init.is_visible, Reel.init.images_per_grid_row, s.timer, Reel.init.shared⟩
    (f32_rt.req trivial rfl) rfl ?_
  refine .segTo ⟨s.ver1, s.ver2, s.back_color, s.is_transparent, s.image, s.sound, s.name, s.width, s.height, s.reel_count, s.reel_spacing, Reel.init.motor_steps, Reel.init.digit_range, Reel.init.update_interval, Reel.init.use_image_grid, Reel.init.is_visible, Reel.init.images_per_grid_row, s.timer, Reel.init.shared⟩
    (f32_rt.req trivial rfl) rfl ?_
  refine .segTo ⟨s.ver1, s.ver2, s.back_color, s.is_transparent, s.image, s.sound, s.name, s.width, s.height, s.reel_count, s.reel_spacing, s.motor_steps, Reel.init.digit_range, Reel.init.update_interval, Reel.init.use_image_grid, Reel.init.is_visible, Reel.init.images_per_grid_row, s.timer, Reel.init.shared⟩
    (f32_rt.req trivial rfl) rfl ?_
  refine .segTo ⟨s.ver1, s.ver2, s.back_color, s.is_transparent, s.image, s.sound, s.name, s.width, s.height, s.reel_count, s.reel_spacing, s.motor_steps, s.digit_range, Reel.init.update_interval, Reel.init.use_image_grid, Reel.init.is_visible, Reel.init.images_per_grid_row, s.timer, Reel.init.shared⟩
    (f32_rt.req trivial rfl) rfl ?_
  refine .segTo ⟨s.ver1, s.ver2, s.back_color, s.is_transparent, s.image, s.sound, s.name, s.width, s.height, s.reel_count, s.reel_spacing, s.motor_steps, s.digit_range, s.update_interval, Reel.init.use_image_grid, Reel.init.is_visible, Reel.init.images_per_grid_row, s.timer, Reel.init.shared⟩
    (u32_rt.req trivial rfl) rfl ?_
  refine .segTo ⟨s.ver1, s.ver2, s.back_color, s.is_transparent, s.image, s.sound, s.name, s.width, s.height, s.reel_count, s.reel_spacing, s.motor_steps, s.digit_range, s.update_interval, s.use_image_grid, Reel.init.is_visible, Reel.init.images_per_grid_row, s.timer, Reel.init.shared⟩
    (bool_rt.req trivial rfl) rfl ?_
  refine .segTo ⟨s.ver1, s.ver2, s.back_color, s.is_transparent, s.image, s.sound, s.name, s.width, s.height, s.reel_count, s.reel_spacing, s.motor_steps, s.digit_range, s.update_interval, s.use_image_grid, s.is_visible, Reel.init.images_per_grid_row, s.timer, Reel.init.shared⟩
    (bool_rt.req trivial rfl) rfl ?_
  refine .segTo ⟨s.ver1, s.ver2, s.back_color, s.is_transparent, s.image, s.sound, s.name, s.width, s.height, s.reel_count, s.reel_spacing, s.motor_steps, s.digit_range, s.update_interval, s.use_image_grid, s.is_visible, s.images_per_grid_row, s.timer, Reel.init.shared⟩
    (u32_rt.req trivial rfl) rfl ?_
  refine .segTo ⟨s.ver1, s.ver2, s.back_color, s.is_transparent, s.image, s.sound, s.name, s.width, s.height, s.reel_count, s.reel_spacing, s.motor_steps, s.digit_range, s.update_interval, s.use_image_grid, s.is_visible, s.images_per_grid_row, s.timer, s.shared⟩
    (shared_reads (L := Reel.sharedL) ⟨fun _ _ => rfl, fun _ _ _ => rfl, fun _ => rfl⟩ h.shared rfl rfl rfl rfl rfl rfl) rfl ?_
  exact .done rfl

theorem Reel.arms_inv : ArmsInv Reel.WF Reel.arms := by
  unfold Reel.arms
  exact (.append (.append (.cons (.fld GP.any fun _ _ h _ => ⟨h.image, h.sound, h.name, h.shared⟩) <|
    .cons (.fld GP.any fun _ _ h _ => ⟨h.image, h.sound, h.name, h.shared⟩) <|
    .cons (.fld GP.any fun _ _ h _ => ⟨h.image, h.sound, h.name, h.shared⟩) <|
    .cons (.fld GP.any fun _ _ h _ => ⟨h.image, h.sound, h.name, h.shared⟩) <|
    .cons (.fld string_gp fun _ _ h hv => ⟨hv, h.sound, h.name, h.shared⟩) <|
    .cons (.fld string_gp fun _ _ h hv => ⟨h.image, hv, h.name, h.shared⟩) <|
    .cons (.fld wide_gp fun _ _ h hv => ⟨h.image, h.sound, hv, h.shared⟩) <|
    .cons (.fld GP.any fun _ _ h _ => ⟨h.image, h.sound, h.name, h.shared⟩) <|
    .cons (.fld GP.any fun _ _ h _ => ⟨h.image, h.sound, h.name, h.shared⟩) <|
    .cons (.fld GP.any fun _ _ h _ => ⟨h.image, h.sound, h.name, h.shared⟩) <|
    .cons (.fld GP.any fun _ _ h _ => ⟨h.image, h.sound, h.name, h.shared⟩) <|
    .cons (.fld GP.any fun _ _ h _ => ⟨h.image, h.sound, h.name, h.shared⟩) <|
    .cons (.fld GP.any fun _ _ h _ => ⟨h.image, h.sound, h.name, h.shared⟩) <|
    .cons (.fld GP.any fun _ _ h _ => ⟨h.image, h.sound, h.name, h.shared⟩) <|
    .cons (.fld GP.any fun _ _ h _ => ⟨h.image, h.sound, h.name, h.shared⟩) <|
    .cons (.fld GP.any fun _ _ h _ => ⟨h.image, h.sound, h.name, h.shared⟩) <|
    .cons (.fld GP.any fun _ _ h _ => ⟨h.image, h.sound, h.name, h.shared⟩) .nil)
    (timerArms_inv fun _ _ h => ⟨h.image, h.sound, h.name, h.shared⟩))
    (sharedArms_inv (fun _ h => h.shared) fun _ _ h ha => ⟨h.image, h.sound, h.name, ha⟩))

theorem Reel.init_wf : Reel.WF Reel.init where
  image := by decide
  sound := by decide
  name := by decide
  shared := ⟨.none, .none⟩

theorem Reel.arms_tame : ArmsTame Reel.arms := by
  unfold Reel.arms
  exact (.append (.append (.cons (fun _ => vertex2d_tame.fld) <|
    .cons (fun _ => vertex2d_tame.fld) <|
    .cons (fun _ => color_tame.fld) <|
    .cons (fun _ => bool_tame.fld) <|
    .cons (fun _ => string_tame.fld) <|
    .cons (fun _ => string_tame.fld) <|
    .cons (fun _ => wide_tame.fld) <|
    .cons (fun _ => f32_tame.fld) <|
    .cons (fun _ => f32_tame.fld) <|
    .cons (fun _ => f32_tame.fld) <|
    .cons (fun _ => f32_tame.fld) <|
    .cons (fun _ => f32_tame.fld) <|
    .cons (fun _ => f32_tame.fld) <|
    .cons (fun _ => u32_tame.fld) <|
    .cons (fun _ => bool_tame.fld) <|
    .cons (fun _ => bool_tame.fld) <|
    .cons (fun _ => u32_tame.fld) .nil) (timerArms_tame _)) (sharedArms_tame _))

end Vpin
