import Verif.Lemmas.Enums
import Verif.Lemmas.Tame
import Verif.Lemmas.ItemData
/-
`Timer`: reading back what was written, and what the reader guarantees for every input.
Generated by tools/gen_items.py.
-/
namespace Vpin


theorem Timer.reads {s : Timer} (h : s.WF) : OReads Timer.arms s.ops Timer.init s := by
  unfold Timer.ops
  refine .segTo ⟨s.center, Timer.init.name, Timer.init.backglass, Timer.init.timer, Timer.init.shared⟩
    (vertex2d_rt.req trivial rfl) rfl ?_
  refine .segTo ⟨s.center, Timer.init.name, Timer.init.backglass, s.timer, Timer.init.shared⟩
    (timer_reads (L := Timer.timerL) ⟨fun _ _ => rfl, fun _ _ _ => rfl, fun _ => rfl⟩ rfl rfl) rfl ?_
  refine .segTo ⟨s.center, s.name, Timer.init.backglass, s.timer, Timer.init.shared⟩
    (wide_rt.req h.name rfl) rfl ?_
  refine .segTo ⟨s.center, s.name, s.backglass, s.timer, Timer.init.shared⟩
    (bool_rt.req trivial rfl) rfl ?_
  refine .segTo ⟨s.center, s.name, s.backglass, s.timer, s.shared⟩
    (shared_reads (L := Timer.sharedL) ⟨fun _ _ => rfl, fun _ _ _ => rfl, fun _ => rfl⟩ h.shared rfl rfl rfl rfl rfl rfl) rfl ?_
  exact .done rfl

theorem Timer.arms_inv : ArmsInv Timer.WF Timer.arms := by
  unfold Timer.arms
  exact (.append (.append (.cons (.fld GP.any fun _ _ h _ => ⟨h.name, h.shared⟩) <|
    .cons (.fld wide_gp fun _ _ h hv => ⟨hv, h.shared⟩) <|
    .cons (.fld GP.any fun _ _ h _ => ⟨h.name, h.shared⟩) .nil)
    (timerArms_inv fun _ _ h => ⟨h.name, h.shared⟩))
    (sharedArms_inv (fun _ h => h.shared) fun _ _ h ha => ⟨h.name, ha⟩))

theorem Timer.init_wf : Timer.WF Timer.init where
  name := by decide
  shared := ⟨.none, .none⟩

theorem Timer.arms_tame : ArmsTame Timer.arms := by
  unfold Timer.arms
  exact (.append (.append (.cons (fun _ => vertex2d_tame.fld) <|
    .cons (fun _ => wide_tame.fld) <|
    .cons (fun _ => bool_tame.fld) .nil) (timerArms_tame _)) (sharedArms_tame _))

end Vpin
