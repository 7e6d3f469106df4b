import Verif.Spec.Compat
import Verif.Model.GltfCollect
/-!
# Vocabulary: how see-through the material of a primitive is
-/
namespace Vpin

/-- the first element of a list that has a property -/
def IsFirst {α : Type} (P : α → Prop) (l : List α) (x : α) : Prop :=
  P x ∧ ∃ before after, l = before ++ x :: after ∧ ∀ y ∈ before, ¬ P y

/-- names that differ at most in the case of ASCII letters -/
def NamesAgree (a b : Str) : Prop := a.map asciiLower = b.map asciiLower

/-- The table has a material of this name, of this opacity, which is switched on or not: the first of the
name in the list of materials, or if it has none there, the first in the list of old materials, where the
lowest bit of a byte is the switch. -/
def HasOpacity (g : GameData) (name : Str) (active : Bool) (opacity : F32) : Prop :=
  name ≠ [] ∧
  ((∃ m, IsFirst (fun m => NamesAgree m.name name) (g.materials.getD []) m ∧ active = m.opacity_active ∧ opacity = m.opacity) ∨
    (∀ m ∈ g.materials.getD [], ¬ NamesAgree m.name name) ∧
      ∃ m, IsFirst (fun m => NamesAgree m.name name) g.materials_old m ∧
        (active = true ↔ m.opacity_active_edge_alpha.toNat % 2 = 1) ∧ opacity = m.opacity)

end Vpin
