import Verif.Lemmas.Inv
import Verif.Spec.Items
/-!
Raw record payloads and list updates used by the item lemmas.
-/
namespace Vpin

theorem data_rt : FieldRT wData getRecordData RecordData := by
  intro σ hs set s t v hv hne hp hl
  refine OReads.sized hl hv hne hp ?_
  intro rest tag w raw hr
  have : 0 < rest.length := List.length_pos_iff.2 hr
  have hg : getRecordData ⟨v ++ rest, v.length, tag, w, raw⟩ = .ok (v, ⟨rest, 0, tag, w, raw⟩) := by
    unfold getRecordData
    rw [if_neg (by simp; omega)]
    simp
  show (getRecordData >>= fun v => pure (set v s)) _ = _
  rw [R.bind_ok hg]; rfl

theorem data_gp : GP getRecordData RecordData := by
  intro r v r' hb h
  unfold getRecordData at h
  split at h
  · cases h
  · cases h
    show 4 + (r.rest.take r.brr).length < 2 ^ 32
    rw [List.length_take]
    omega

theorem forall_append {α : Type} {P : α → Prop} {l : List α} {v : α} (h : ∀ p ∈ l, P p)
    (hv : P v) : ∀ p ∈ l ++ [v], P p := by
  intro p hp
  rcases List.mem_append.1 hp with hp | hp
  · exact h p hp
  · rw [List.mem_singleton] at hp; exact hp ▸ hv

theorem push_ne {α : Type} (o : Option (List α)) (v : α) :
    OptP (fun l => l ≠ []) (some (o.getD [] ++ [v])) := .some (by simp)

theorem push_data {o : Option (List Bytes)} {v : Bytes}
    (h : OptP (fun l => l ≠ [] ∧ ∀ d ∈ l, RecordData d) o) (hv : RecordData v) :
    OptP (fun l => l ≠ [] ∧ ∀ d ∈ l, RecordData d) (some (o.getD [] ++ [v])) := by
  refine .some ⟨by simp, ?_⟩
  cases o with
  | none => exact forall_append (l := []) (by intro p hp; cases hp) hv
  | some l => exact forall_append (h l rfl).2 hv

end Vpin
