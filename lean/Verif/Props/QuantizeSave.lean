import Verif.Props.Quantize
import Verif.Model.Items.Wall
import Verif.Model.Items.Primitive
import Verif.Model.Items.HitTarget
import Verif.Model.GameData
/-
C31: values that cannot be stored.
-/
namespace Vpin

/-- a number that cannot be stored in eight bits: not a number, or below zero -/
def Unstorable (x : F32) : Prop := x.isNaN = true ∨ (x.isNeg = true ∧ x.mag ≠ 0)

theorem wQuant8_fail (t : Tag) {x : F32} (h : Unstorable x) : wQuant8 t x = .fail := by
  have := (C31_store_rejects (2 ^ 8 - 1) (2 ^ 8) x).2 h
  unfold wQuant8
  rw [quantize8_eq]
  unfold quantizeUnsigned
  rw [this]

theorem endTag_err (w : Wr) (e : Err) (h : w.endTag = .error e) : e = .panic := by
  unfold Wr.endTag at h
  split at h
  · cases h
  · split at h
    · cases h
    · cases h; rfl

theorem newTag_err (w : Wr) (t : Tag) (e : Err) (h : w.newTag t = .error e) : e = .panic := by
  unfold Wr.newTag at h
  cases hw : w.endTag with
  | error e' => rw [hw] at h; cases h; exact endTag_err w _ hw
  | ok w' => rw [hw] at h; cases h

theorem run_err (w : Wr) (op : WOp) (e : Err) (h : op.run w = .error e) : e = .panic := by
  cases op with
  | sized t p =>
    unfold WOp.run at h
    dsimp only at h
    cases hw : w.newTag t with
    | error e' => rw [hw] at h; cases h; exact newTag_err w t _ hw
    | ok w' => rw [hw] at h; exact endTag_err _ _ h
  | «unsized» t p =>
    unfold WOp.run at h
    dsimp only at h
    cases hw : w.newTag t with
    | error e' => rw [hw] at h; cases h; exact newTag_err w t _ hw
    | ok w' => rw [hw] at h; cases h
  | fail => cases h; rfl

theorem runOps_fail : ∀ (ops : List WOp) (w : Wr), .fail ∈ ops → runOps w ops = .error .panic
  | [], _, h => by simp at h
  | op :: ops, w, h => by
    unfold runOps
    cases hr : op.run w with
    | error e => rw [run_err w op e hr]
    | ok w' =>
      dsimp only
      refine runOps_fail ops w' ?_
      rcases List.mem_cons.1 h with e | e
      · rw [← e] at hr; cases hr
      · exact e

theorem writeBiff_fail (ops : List WOp) (h : .fail ∈ ops) : writeBiff ops = .error .panic := by
  unfold writeBiff
  rw [runOps_fail ops {} h]

/-- C31: a wall, primitive or hit target whose old lighting value is not a number or negative, and a
table whose reflection strength is, cannot be saved: writing panics, whatever else they hold. -/
theorem C31_save_refuses {x : F32} (h : Unstorable x) :
    (∀ s : Wall, s.disable_lighting_top_old = some x → s.write = .error .panic) ∧
    (∀ s : Primitive, s.disable_lighting_top_old = some x → s.write = .error .panic) ∧
    (∀ s : HitTarget, s.disable_lighting_top_old = some x → s.write = .error .panic) ∧
    (∀ (v : UInt32) (s : GameData), s.playfield_reflection_strength = x → s.write v = .error .panic) := by
  refine ⟨fun s hs => writeBiff_fail _ ?_, fun s hs => writeBiff_fail _ ?_, fun s hs => writeBiff_fail _ ?_,
    fun v s hs => writeBiff_fail _ ?_⟩
  · exact List.mem_flatten.2 ⟨opt (wQuant8 tag!"DILI") s.disable_lighting_top_old, by simp only [List.mem_cons, true_or, or_true],
      by rw [hs]; exact List.mem_singleton.2 (wQuant8_fail _ h).symm⟩
  · exact List.mem_flatten.2 ⟨opt (wQuant8 tag!"DILI") s.disable_lighting_top_old, by simp only [List.mem_cons, true_or, or_true],
      by rw [hs]; exact List.mem_singleton.2 (wQuant8_fail _ h).symm⟩
  · exact List.mem_flatten.2 ⟨opt (wQuant8 tag!"DILI") s.disable_lighting_top_old, by simp only [List.mem_cons, true_or, or_true],
      by rw [hs]; exact List.mem_singleton.2 (wQuant8_fail _ h).symm⟩
  · refine List.mem_flatten.2 ⟨s.opsE, by simp only [List.mem_cons, true_or, or_true], ?_⟩
    exact List.mem_flatten.2 ⟨[wQuant8 tag!"PLST" s.playfield_reflection_strength],
      by simp only [List.mem_cons, true_or, or_true],
      by rw [hs]; exact List.mem_singleton.2 (wQuant8_fail _ h).symm⟩

/-- -0.5 and a NaN cannot be stored, -0.0 can -/
example : Unstorable 0xbf000000 ∧ Unstorable 0x7fc00000 ∧ ¬ Unstorable 0x80000000 := by
  unfold Unstorable; decide

end Vpin
