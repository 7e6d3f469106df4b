import Verif.Model.Bytes
/-! Taking sequences of calls apart. -/
namespace Vpin

theorem Res.unbind {α β : Type} {x : Res α} {f : α → Res β} {b : β} (h : (x >>= f) = .ok b) :
    ∃ a, x = .ok a ∧ f a = .ok b := by
  cases x with
  | error e => cases h
  | ok a => exact ⟨a, rfl, h⟩

theorem Res.thenOk {α β : Type} {x : Res α} {f : α → Res β} {a : α} (h : x = .ok a) : (x >>= f) = f a := by
  rw [h]; rfl

end Vpin
