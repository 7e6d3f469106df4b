import Verif.Lemmas.Enums
import Verif.Lemmas.Tame
import Verif.Lemmas.ItemData
/-
`Kicker`: reading back what was written, and what the reader guarantees for every input.
Generated by tools/gen_items.py.
-/
namespace Vpin


theorem Kicker.reads {s : Kicker} (h : s.WF) : OReads Kicker.arms s.ops Kicker.init s := by
  unfold Kicker.ops
  refine .segTo ⟨s.center, Kicker.init.radius, Kicker.init.material, Kicker.init.surface, Kicker.init.is_enabled, Kicker.init.name, Kicker.init.kicker_type, Kicker.init.scatter, Kicker.init.hit_accuracy, Kicker.init.hit_height, Kicker.init.orientation, Kicker.init.fall_through, Kicker.init.legacy_mode, Kicker.init.timer, Kicker.init.shared⟩
    (vertex2d_rt.req trivial rfl) rfl ?_
  refine .segTo ⟨s.center, s.radius, Kicker.init.material, Kicker.init.surface, Kicker.init.is_enabled, Kicker.init.name, Kicker.init.kicker_type, Kicker.init.scatter, Kicker.init.hit_accuracy, Kicker.init.hit_height, Kicker.init.orientation, Kicker.init.fall_through, Kicker.init.legacy_mode, Kicker.init.timer, Kicker.init.shared⟩
    (f32_rt.req trivial rfl) rfl ?_
  refine .segTo ⟨s.center, s.radius, Kicker.init.material, Kicker.init.surface, Kicker.init.is_enabled, Kicker.init.name, Kicker.init.kicker_type, Kicker.init.scatter, Kicker.init.hit_accuracy, Kicker.init.hit_height, Kicker.init.orientation, Kicker.init.fall_through, Kicker.init.legacy_mode, s.timer, Kicker.init.shared⟩
    (timer_reads (L := Kicker.timerL) ⟨fun _ _ => rfl, fun _ _ _ => rfl, fun _ => rfl⟩ rfl rfl) rfl ?_
  refine .segTo ⟨s.center, s.radius, s.material, Kicker.init.surface, Kicker.init.is_enabled, Kicker.init.name, Kicker.init.kicker_type, Kicker.init.scatter, Kicker.init.hit_accuracy, Kicker.init.hit_height, Kicker.init.orientation, Kicker.init.fall_through, Kicker.init.legacy_mode, s.timer, Kicker.init.shared⟩
    (string_rt.req h.material rfl) rfl ?_
  refine .segTo ⟨s.center, s.radius, s.material, s.surface, Kicker.init.is_enabled, Kicker.init.name, Kicker.init.kicker_type, Kicker.init.scatter, Kicker.init.hit_accuracy, Kicker.init.hit_height, Kicker.init.orientation, Kicker.init.fall_through, Kicker.init.legacy_mode, s.timer, Kicker.init.shared⟩
    (string_rt.req h.surface rfl) rfl ?_
  refine .segTo ⟨s.center, s.radius, s.material, s.surface, s.is_enabled, Kicker.init.name, Kicker.init.kicker_type, Kicker.init.scatter, Kicker.init.hit_accuracy, Kicker.init.hit_height, Kicker.init.orientation, Kicker.init.fall_through, Kicker.init.legacy_mode, s.timer, Kicker.init.shared⟩
    (bool_rt.req trivial rfl) rfl ?_
  refine .segTo ⟨s.center, s.radius, s.material, s.surface, s.is_enabled, s.name, Kicker.init.kicker_type, Kicker.init.scatter, Kicker.init.hit_accuracy, Kicker.init.hit_height, Kicker.init.orientation, Kicker.init.fall_through, Kicker.init.legacy_mode, s.timer, Kicker.init.shared⟩
    (wide_rt.req h.name rfl) rfl ?_
  refine .segTo ⟨s.center, s.radius, s.material, s.surface, s.is_enabled, s.name, s.kicker_type, Kicker.init.scatter, Kicker.init.hit_accuracy, Kicker.init.hit_height, Kicker.init.orientation, Kicker.init.fall_through, Kicker.init.legacy_mode, s.timer, Kicker.init.shared⟩
    (KickerType.rt.req trivial rfl) rfl ?_
  refine .segTo ⟨s.center, s.radius, s.material, s.surface, s.is_enabled, s.name, s.kicker_type, s.scatter, Kicker.init.hit_accuracy, Kicker.init.hit_height, Kicker.init.orientation, Kicker.init.fall_through, Kicker.init.legacy_mode, s.timer, Kicker.init.shared⟩
    (f32_rt.req trivial rfl) rfl ?_
  refine .segTo ⟨s.center, s.radius, s.material, s.surface, s.is_enabled, s.name, s.kicker_type, s.scatter, s.hit_accuracy, Kicker.init.hit_height, Kicker.init.orientation, Kicker.init.fall_through, Kicker.init.legacy_mode, s.timer, Kicker.init.shared⟩
    (f32_rt.req trivial rfl) rfl ?_
  refine .segTo ⟨s.center, s.radius, s.material, s.surface, s.is_enabled, s.name, s.kicker_type, s.scatter, s.hit_accuracy, s.hit_height, Kicker.init.orientation, Kicker.init.fall_through, Kicker.init.legacy_mode, s.timer, Kicker.init.shared⟩
    (f32_rt.opt (fun v (s : Kicker) => { s with hit_height := v }) (fun _ _ => trivial) rfl rfl) rfl ?_
  refine .segTo ⟨s.center, s.radius, s.material, s.surface, s.is_enabled, s.name, s.kicker_type, s.scatter, s.hit_accuracy, s.hit_height, s.orientation, Kicker.init.fall_through, Kicker.init.legacy_mode, s.timer, Kicker.init.shared⟩
    (f32_rt.req trivial rfl) rfl ?_
  refine .segTo ⟨s.center, s.radius, s.material, s.surface, s.is_enabled, s.name, s.kicker_type, s.scatter, s.hit_accuracy, s.hit_height, s.orientation, s.fall_through, Kicker.init.legacy_mode, s.timer, Kicker.init.shared⟩
    (bool_rt.req trivial rfl) rfl ?_
  refine .segTo ⟨s.center, s.radius, s.material, s.surface, s.is_enabled, s.name, s.kicker_type, s.scatter, s.hit_accuracy, s.hit_height, s.orientation, s.fall_through, s.legacy_mode, s.timer, Kicker.init.shared⟩
    (bool_rt.req trivial rfl) rfl ?_
  refine .segTo ⟨s.center, s.radius, s.material, s.surface, s.is_enabled, s.name, s.kicker_type, s.scatter, s.hit_accuracy, s.hit_height, s.orientation, s.fall_through, s.legacy_mode, s.timer, s.shared⟩
    (shared_reads (L := Kicker.sharedL) ⟨fun _ _ => rfl, fun _ _ _ => rfl, fun _ => rfl⟩ h.shared rfl rfl rfl rfl rfl rfl) rfl ?_
  exact .done rfl

theorem Kicker.arms_inv : ArmsInv Kicker.WF Kicker.arms := by
  unfold Kicker.arms
  exact (.append (.append (.cons (.fld GP.any fun _ _ h _ => ⟨h.material, h.surface, h.name, h.shared⟩) <|
    .cons (.fld GP.any fun _ _ h _ => ⟨h.material, h.surface, h.name, h.shared⟩) <|
    .cons (.fld string_gp fun _ _ h hv => ⟨hv, h.surface, h.name, h.shared⟩) <|
    .cons (.fld string_gp fun _ _ h hv => ⟨h.material, hv, h.name, h.shared⟩) <|
    .cons (.fld GP.any fun _ _ h _ => ⟨h.material, h.surface, h.name, h.shared⟩) <|
    .cons (.fld wide_gp fun _ _ h hv => ⟨h.material, h.surface, hv, h.shared⟩) <|
    .cons (.fld GP.any fun _ _ h _ => ⟨h.material, h.surface, h.name, h.shared⟩) <|
    .cons (.fld GP.any fun _ _ h _ => ⟨h.material, h.surface, h.name, h.shared⟩) <|
    .cons (.fld GP.any fun _ _ h _ => ⟨h.material, h.surface, h.name, h.shared⟩) <|
    .cons (.fld GP.any fun _ _ h _ => ⟨h.material, h.surface, h.name, h.shared⟩) <|
    .cons (.fld GP.any fun _ _ h _ => ⟨h.material, h.surface, h.name, h.shared⟩) <|
    .cons (.fld GP.any fun _ _ h _ => ⟨h.material, h.surface, h.name, h.shared⟩) <|
    .cons (.fld GP.any fun _ _ h _ => ⟨h.material, h.surface, h.name, h.shared⟩) .nil)
    (timerArms_inv fun _ _ h => ⟨h.material, h.surface, h.name, h.shared⟩))
    (sharedArms_inv (fun _ h => h.shared) fun _ _ h ha => ⟨h.material, h.surface, h.name, ha⟩))

theorem Kicker.init_wf : Kicker.WF Kicker.init where
  material := by decide
  surface := by decide
  name := by decide
  shared := ⟨.none, .none⟩

theorem Kicker.arms_tame : ArmsTame Kicker.arms := by
  unfold Kicker.arms
  exact (.append (.append (.cons (fun _ => vertex2d_tame.fld) <|
    .cons (fun _ => f32_tame.fld) <|
    .cons (fun _ => string_tame.fld) <|
    .cons (fun _ => string_tame.fld) <|
    .cons (fun _ => bool_tame.fld) <|
    .cons (fun _ => wide_tame.fld) <|
    .cons (fun _ => enum_tame.fld) <|
    .cons (fun _ => f32_tame.fld) <|
    .cons (fun _ => f32_tame.fld) <|
    .cons (fun _ => f32_tame.fld) <|
    .cons (fun _ => f32_tame.fld) <|
    .cons (fun _ => bool_tame.fld) <|
    .cons (fun _ => bool_tame.fld) .nil) (timerArms_tame _)) (sharedArms_tame _))

end Vpin
