import Verif.Lemmas.JsonCodec
/-
The styles of a font are a set, which is written in any order.
-/
namespace Vpin

/-- the names of the styles in a set -/
def FontStyles.names (s : FontStyles) : List Str :=
  (if s.normal then ["Normal".toList] else []) ++ (if s.bold then ["Bold".toList] else []) ++
    (if s.italic then ["Italic".toList] else []) ++ (if s.underline then ["Underline".toList] else []) ++
    (if s.strikethrough then ["Strikethrough".toList] else [])

/-- **C46.** The styles of a font are read back from their names in any order. -/
theorem C46_style_any_order (s : FontStyles) (l : List Str) (h : l.Perm s.names) :
    FontStyles.ofJ (.arr (l.map .str)) = .ok s := by
  have h1 : ∀ l : List Str, (∀ n ∈ l, fontStyleNames.contains n = true) →
      (l.map J.str).mapM fontStyleOfJ = .ok l := by
    intro l
    induction l with
    | nil => intro _; rfl
    | cons n l ih =>
      intro hl
      rw [List.map_cons, List.mapM_cons]
      have : fontStyleOfJ (.str n) = .ok n := by
        unfold fontStyleOfJ
        exact if_pos (hl n List.mem_cons_self)
      rw [this, ih fun m hm => hl m (List.mem_cons_of_mem _ hm)]
      rfl
  have h2 : ∀ n ∈ s.names, fontStyleNames.contains n = true := by
    obtain ⟨a, b, c, d, e⟩ := s
    cases a <;> cases b <;> cases c <;> cases d <;> cases e <;> decide
  have h3 : FontStyles.ofNames l = FontStyles.ofNames s.names := by
    have : ∀ n, l.contains n = s.names.contains n := fun n => by
      rw [Bool.eq_iff_iff, List.contains_iff_mem, List.contains_iff_mem]
      exact h.mem_iff
    unfold FontStyles.ofNames
    simp only [this]
  show FontStyles.ofNames <$> (l.map J.str).mapM fontStyleOfJ = _
  rw [h1 l fun n hn => h2 n (h.mem_iff.1 hn)]
  show Except.ok (FontStyles.ofNames l) = _
  rw [h3]
  obtain ⟨a, b, c, d, e⟩ := s
  cases a <;> cases b <;> cases c <;> cases d <;> cases e <;> decide

example : (["Italic".toList, "Bold".toList] : List Str).Perm
    (FontStyles.names ⟨false, true, true, false, false⟩) := by decide

end Vpin
