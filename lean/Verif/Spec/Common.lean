import Verif.Spec.Text
import Verif.Model.Common
/-
Which values of the shared field types the file format can hold. These predicates are the
hypotheses of the round-trip theorems; `Props/Reread.lean` shows that every value the readers
produce satisfies them.
-/
namespace Vpin

/-- no condition -/
def Any {α : Type} (_ : α) : Prop := True

/-- `o` is absent or satisfies `P` -/
def OptP {α : Type} (P : α → Prop) (o : Option α) : Prop := ∀ v, o = some v → P v

theorem OptP.none {α : Type} {P : α → Prop} : OptP P none := fun _ h => by cases h
theorem OptP.some {α : Type} {P : α → Prop} {v : α} (h : P v) : OptP P (some v) :=
  fun _ e => by cases e; exact h

/-- one of the 256 levels of an 8 bit quantised value -/
def Level8 (x : F32) : Prop := ∃ i : UInt32, i.toNat < 256 ∧ x = dequantize8 i

/-- a font name fits its one-byte length -/
def Font.WF (f : Font) : Prop := IsLatin1 f.name ∧ NulFree f.name ∧ f.name.length < 256

instance (f : Font) : Decidable f.WF :=
  inferInstanceAs (Decidable ((∀ c ∈ f.name, _) ∧ (∀ c ∈ f.name, _) ∧ _))

/-- the text attributes fit in records -/
structure SharedAttrs.WF (a : SharedAttrs) : Prop where
  editor_layer_name : OptP Text a.editor_layer_name
  part_group_name : OptP Text a.part_group_name

end Vpin
