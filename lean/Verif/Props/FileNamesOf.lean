import Verif.Props.FileNames
/-
C36: which file name belongs to which item.
-/
namespace Vpin

/-- the file name an item has if no other item wants it: its kind, a dot, and its name, in which every character that is
not a letter or digit is an underscore; `unnamed` if it has no name -/
def PlainStem (U : Unicode) (item : GameItemEnum) (s : Str) : Prop :=
  ∃ rest, s = item.type_name ++ '.' :: rest ∧
    (item.name = [] → rest = "unnamed".toList) ∧
    (item.name ≠ [] → rest.length = item.name.length ∧
      ∀ (i : Nat) c, item.name[i]? = some c → rest[i]? = some (if U.alnum c then c else '_'))

theorem itemStem_plain (U : Unicode) (item : GameItemEnum) : PlainStem U item (itemStem U item) := by
  unfold itemStem PlainStem
  refine ⟨(if item.name = [] then "unnamed".toList else item.name).map fun c => if U.alnum c then c else '_',
    by simp, fun h => ?_, fun h => ?_⟩
  · rw [if_pos h]
    have : ∀ c ∈ "unnamed".toList, (if U.alnum c then c else '_') = id c := by
      intro c hc
      have h2 : c.toNat < 128 ∧ c.isAlphanum = true := by
        have : ∀ c ∈ "unnamed".toList, c.toNat < 128 ∧ c.isAlphanum = true := by decide
        exact this c hc
      rw [U.alnum_ascii c h2.1, h2.2]
      rfl
    rw [List.map_congr_left this, List.map_id]
  · rw [if_neg h]
    refine ⟨by simp, fun i c hc => ?_⟩
    rw [List.getElem?_map, hc]
    rfl

/-- **C36.** Each item's file is named after that item: its file name is the plain one, or the plain one with two
underscores and a number. -/
theorem C36_name_of_item (U : Unicode) (items : List GameItemEnum) (ns : List Str) (used : List Str)
    (h : itemStems U used items = .ok ns) (i : Nat) (item : GameItemEnum) (n : Str) (hi : items[i]? = some item)
    (hn : ns[i]? = some n) :
    ∃ s, PlainStem U item s ∧ (n = s ∨ ∃ k, 1 ≤ k ∧ n = s ++ "__".toList ++ decimal k) := by
  induction items generalizing ns used i with
  | nil => cases hi
  | cons it items ih =>
    obtain ⟨m, h1, -, -, h3⟩ := ensureUnique_ok (U := U) used (itemStem U it)
    obtain ⟨ms, i1, -⟩ := itemStems_ok (U := U) items (U.lower m :: used)
    have h2 : itemStems U used (it :: items) = .ok (m :: ms) := by
      unfold itemStems
      rw [h1]
      show (do let ns ← itemStems U (U.lower m :: used) items; pure (m :: ns)) = _
      rw [i1]; rfl
    rw [h] at h2
    cases h2
    cases i with
    | zero =>
      cases hi; cases hn
      exact ⟨_, itemStem_plain U item, h3⟩
    | succ i => exact ih ms _ i1 i hi hn

example : itemStems asciiUnicode [] nameSamples = .ok
      ["Timer.A_b".toList, "Timer.a_B__1".toList, "Timer.A_b__1__1".toList, "Timer.unnamed".toList] ∧
    PlainStem asciiUnicode (.timer { Timer.default with name := "a-B".toList }) "Timer.a_B".toList :=
  ⟨by decide +kernel, itemStem_plain asciiUnicode (.timer { Timer.default with name := "a-B".toList })⟩

end Vpin
