import Verif.Spec.FileNames
import Verif.Lemmas.MacFrame
/-
C36: the file names of the items of an expanded table.
-/
namespace Vpin
variable {U : Unicode}

/-! ### The loop -/

theorem uniqueLoop_ok (used : List Str) (name : Str) : ∀ f k, (∃ i, k ≤ i ∧ i < k + f ∧
    used.contains (U.lower (name ++ "__".toList ++ decimal i)) = false) →
    ∃ n, uniqueLoop U used name f k = .ok n ∧ used.contains (U.lower n) = false ∧
      ∃ i, k ≤ i ∧ n = name ++ "__".toList ++ decimal i
  | 0, k, ⟨i, h1, h2, _⟩ => by omega
  | f + 1, k, ⟨i, h1, h2, h3⟩ => by
    unfold uniqueLoop
    dsimp only
    split
    · next hc =>
      have hne : i ≠ k := by
        rintro rfl
        rw [h3] at hc; cases hc
      obtain ⟨n, h4, h5, j, hj, hn⟩ := uniqueLoop_ok used name f (k + 1) ⟨i, by omega, by omega, h3⟩
      exact ⟨n, h4, h5, j, by omega, hn⟩
    · next hc =>
      exact ⟨_, rfl, by simpa using hc, k, Nat.le_refl k, rfl⟩

/-- one of the first `used.length + 1` candidates is free -/
theorem candidate_free (used : List Str) (name : Str) :
    ∃ i, 1 ≤ i ∧ i < 1 + (used.length + 1) ∧
      used.contains (U.lower (name ++ "__".toList ++ decimal i)) = false := by
  refine Classical.byContradiction fun hno => ?_
  have hall : ∀ i < used.length + 1,
      used.contains (U.lower (name ++ "__".toList ++ decimal (i + 1))) = true := by
    intro i hi
    cases hc : used.contains (U.lower (name ++ "__".toList ++ decimal (i + 1))) with
    | true => rfl
    | false => exact absurd ⟨i + 1, by omega, by omega, hc⟩ hno
  have h1 : ((List.range (used.length + 1)).map fun i =>
      U.lower (name ++ "__".toList ++ decimal (i + 1))).Nodup := by
    unfold List.Nodup
    rw [List.pairwise_map]
    refine List.Pairwise.imp (fun hab he => hab ?_) List.nodup_range
    have := U.lower_counter _ _ _ he
    omega
  have h2 : ((List.range (used.length + 1)).map fun i =>
      U.lower (name ++ "__".toList ++ decimal (i + 1))) ⊆ used := by
    intro k hk
    obtain ⟨i, hi, rfl⟩ := List.mem_map.1 hk
    have := hall i (by simpa using hi)
    exact List.contains_iff_mem.1 this
  have := List.Nodup.length_le_of_subset h1 h2
  simp at this
  omega

/-- what `ensure_unique` returns: the name itself if it is free, else the name with a number -/
theorem ensureUnique_ok (used : List Str) (name : Str) :
    ∃ n, ensureUnique U used name = .ok (n, U.lower n :: used) ∧ U.lower n ∉ used ∧
      (U.lower name ∉ used → n = name) ∧ (n = name ∨ ∃ i, 1 ≤ i ∧ n = name ++ "__".toList ++ decimal i) := by
  unfold ensureUnique
  split
  · next hc =>
    obtain ⟨n, h1, h2, i, hi, hn⟩ := uniqueLoop_ok (U := U) used name (used.length + 1) 1 (candidate_free used name)
    refine ⟨n, ?_, ?_, ?_, .inr ⟨i, hi, hn⟩⟩
    · rw [h1]; rfl
    · intro hm
      rw [List.contains_iff_mem.2 hm] at h2; cases h2
    · intro hm
      exact absurd (List.contains_iff_mem.1 hc) hm
  · next hc =>
    refine ⟨name, rfl, ?_, fun _ => rfl, .inl rfl⟩
    intro hm
    exact hc (List.contains_iff_mem.2 hm)

theorem itemStems_ok : ∀ (items : List GameItemEnum) (used : List Str), ∃ ns, itemStems U used items = .ok ns ∧
    ns.length = items.length ∧ (ns.map U.lower).Nodup ∧ (∀ n ∈ ns, U.lower n ∉ used) ∧
    ∀ n ∈ ns, ∃ item ∈ items, n = itemStem U item ∨ ∃ i, 1 ≤ i ∧ n = itemStem U item ++ "__".toList ++ decimal i
  | [], used => ⟨[], rfl, rfl, by simp, by simp, by simp⟩
  | item :: items, used => by
    obtain ⟨n, h1, h2, -, h3⟩ := ensureUnique_ok (U := U) used (itemStem U item)
    obtain ⟨ns, i1, i2, i3, i4, i5⟩ := itemStems_ok items (U.lower n :: used)
    refine ⟨n :: ns, ?_, by simp [i2], ?_, ?_, ?_⟩
    · unfold itemStems
      rw [h1]
      show (do let ns ← itemStems U (U.lower n :: used) items; pure (n :: ns)) = _
      rw [i1]; rfl
    · rw [List.map_cons, List.nodup_cons]
      refine ⟨?_, i3⟩
      intro hm
      obtain ⟨m, hm1, hm2⟩ := List.mem_map.1 hm
      exact i4 m hm1 (by rw [hm2]; exact List.mem_cons_self)
    · intro m hm
      rcases List.mem_cons.1 hm with rfl | hm
      · exact h2
      · exact fun h => i4 m hm (List.mem_cons_of_mem _ h)
    · intro m hm
      rcases List.mem_cons.1 hm with rfl | hm
      · exact ⟨item, List.mem_cons_self, h3⟩
      · obtain ⟨it, h5, h6⟩ := i5 m hm
        exact ⟨it, List.mem_cons_of_mem _ h5, h6⟩

/-! ### C36 -/

/-- **C36.** Whatever the items are called, every item gets a file name, and no two are equal, not even ignoring
case. -/
theorem C36_names_unique (U : Unicode) (items : List GameItemEnum) :
    ∃ ns : List Str, itemStems U [] items = .ok ns ∧ ns.length = items.length ∧
      ∀ (i j : Nat) a b, ns[i]? = some a → ns[j]? = some b → U.lower a = U.lower b → i = j := by
  obtain ⟨ns, h1, h2, h3, -, -⟩ := itemStems_ok (U := U) items []
  refine ⟨ns, h1, h2, ?_⟩
  intro i j a b ha hb he
  obtain ⟨hi, ha'⟩ := List.getElem?_eq_some_iff.1 ha
  obtain ⟨hj, hb'⟩ := List.getElem?_eq_some_iff.1 hb
  have := (List.getElem_inj (xs := ns.map U.lower) (h₀ := by simpa using hi) (h₁ := by simpa using hj) h3).1
    (by simp [ha', hb', he])
  exact this

def nameChar (c : Char) : Bool := decide (c.toNat < 128) && (c.isAlphanum || c == '_')

theorem nameChar_all {s : Str} (h : s.all nameChar = true) :
    ∀ c ∈ s, c.toNat < 128 ∧ (c.isAlphanum = true ∨ c = '_') := by
  intro c hc
  simpa [nameChar] using List.all_eq_true.1 h c hc

theorem type_name_chars (item : GameItemEnum) : ∀ c ∈ item.type_name, c.toNat < 128 ∧ (c.isAlphanum = true ∨ c = '_') := by
  cases item with
  | generic t x =>
    intro c hc
    unfold GameItemEnum.type_name at hc
    rcases List.mem_append.1 hc with h | h
    · exact nameChar_all (s := "Generic_".toList) rfl c h
    · have h2 : c.isDigit = true := by
        have h3 : c ∈ (Nat.repr t.toNat).toList := h
        rw [Nat.toList_repr] at h3
        exact Nat.isDigit_of_mem_toDigits (by decide) (by decide) h3
      refine ⟨?_, .inl ?_⟩
      · have : c.val ≤ 57 := by
          unfold Char.isDigit at h2
          simp at h2
          exact h2.2
        have h4 : c.toNat ≤ 57 := by simpa using UInt32.le_iff_toNat_le.1 this
        omega
      · unfold Char.isAlphanum; rw [h2]; simp
  | _ => exact nameChar_all rfl

theorem safe_digit {c : Char} (h1 : 0x30 ≤ c.toNat) (h2 : c.toNat ≤ 0x39) : SafeChar U c := by
  left
  rw [U.alnum_ascii c (by omega)]
  have : c.isDigit = true := by
    unfold Char.isDigit
    have e1 : c.val ≥ 48 := by
      show (48 : UInt32) ≤ c.val
      rw [UInt32.le_iff_toNat_le]; exact h1
    have e2 : c.val ≤ 57 := by rw [UInt32.le_iff_toNat_le]; exact h2
    simp [e1, e2]
  unfold Char.isAlphanum
  rw [this]; simp

/-- **C36.** Every file name is `Type.Name`, where `Name` is the item's name with an underscore for every unsafe
character (`unnamed` if there is none), or that with `__` and a number; so it is made of safe characters only. -/
theorem C36_names_safe (U : Unicode) (items : List GameItemEnum) (ns : List Str) (h : itemStems U [] items = .ok ns) :
    (∀ n ∈ ns, ∃ item ∈ items, n = itemStem U item ∨ ∃ i, 1 ≤ i ∧ n = itemStem U item ++ "__".toList ++ decimal i) ∧
    ∀ n ∈ ns, ∀ c ∈ n, SafeChar U c := by
  obtain ⟨ns', h1, -, -, -, h5⟩ := itemStems_ok (U := U) items []
  rw [h] at h1; cases h1
  refine ⟨h5, ?_⟩
  have stem : ∀ item, ∀ c ∈ itemStem U item, SafeChar U c := by
    intro item c hc
    unfold itemStem at hc
    rcases List.mem_append.1 hc with hc | hc
    · rcases List.mem_append.1 hc with hc | hc
      · obtain ⟨ha, hb⟩ := type_name_chars item c hc
        rcases hb with hb | hb
        · exact .inl (by rw [U.alnum_ascii c ha]; exact hb)
        · exact .inr (.inl hb)
      · exact .inr (.inr (List.mem_singleton.1 hc))
    · obtain ⟨d, -, rfl⟩ := List.mem_map.1 hc
      split
      · next hd => exact .inl hd
      · exact .inr (.inl rfl)
  intro n hn c hc
  obtain ⟨item, -, rfl | ⟨i, -, rfl⟩⟩ := h5 n hn
  · exact stem item c hc
  · rcases List.mem_append.1 hc with hc | hc
    · rcases List.mem_append.1 hc with hc | hc
      · exact stem item c hc
      · refine .inr (.inl ?_)
        have : c = '_' ∨ c = '_' := by simpa using hc
        rcases this with h | h <;> exact h
    · obtain ⟨d1, d2⟩ := decimalF_digits _ _ c hc
      exact safe_digit d1 d2

/-- **C36.** Safe characters are none of those that some system does not allow. -/
theorem C36_safe_not_forbidden (U : Unicode) (c : Char) (h : SafeChar U c) : c ∉ ForbiddenChars := by
  intro hc
  have hf : ∀ d ∈ ForbiddenChars, d.toNat < 128 ∧ d.isAlphanum = false ∧ d ≠ '_' ∧ d ≠ '.' := by decide
  obtain ⟨h1, h2, h3, h4⟩ := hf c hc
  rcases h with h | h | h
  · rw [U.alnum_ascii c h1, h2] at h; cases h
  · exact h3 h
  · exact h4 h

/-- **C36.** The first item of a name keeps it: without an earlier item of the same name (ignoring case) nor one
whose generated name it is, no number is added. -/
theorem C36_free_name_kept (U : Unicode) (used : List Str) (item : GameItemEnum) (items : List GameItemEnum)
    (h : U.lower (itemStem U item) ∉ used) :
    ∃ ns, itemStems U used (item :: items) = .ok (itemStem U item :: ns) := by
  obtain ⟨n, h1, h2, h3, -⟩ := ensureUnique_ok (U := U) used (itemStem U item)
  rw [h3 h] at h1
  obtain ⟨ns, i1, -⟩ := itemStems_ok (U := U) items (U.lower (itemStem U item) :: used)
  refine ⟨ns, ?_⟩
  unfold itemStems
  rw [h1]
  show (do let ns ← itemStems U (U.lower (itemStem U item) :: used) items; pure (itemStem U item :: ns)) = _
  rw [i1]; rfl

/-! ### An instance -/

theorem asciiLower_id {c : Char} (h : c.toNat ≤ 0x39) : asciiLower c = c := by
  unfold asciiLower
  rw [if_neg]
  rintro ⟨h1, -⟩
  have h2 : ('A' : Char).toNat ≤ c.toNat := by
    have := Char.le_def.1 h1
    exact UInt32.le_iff_toNat_le.1 this
  have h3 : ('A' : Char).toNat = 65 := rfl
  omega

/-- Unicode cut down to ASCII -/
def asciiUnicode : Unicode where
  lower s := s.map asciiLower
  alnum c := c.isAlphanum
  lower_counter := by
    intro s i j h
    rw [List.map_append (l₁ := s ++ "__".toList), List.map_append (l₁ := s ++ "__".toList)] at h
    have h1 := List.append_cancel_left h
    have hid : ∀ k, (decimal k).map asciiLower = decimal k := by
      intro k
      conv => rhs; rw [← List.map_id (decimal k)]
      refine List.map_congr_left ?_
      intro c hc
      exact asciiLower_id (decimalF_digits _ _ c hc).2
    rw [hid, hid] at h1
    exact decimal_inj h1
  alnum_ascii _ _ := rfl

/-- items of the same name, in other case, with the name that is generated, and without a name -/
def nameSamples : List GameItemEnum :=
  [.timer { Timer.default with name := "A b".toList }, .timer { Timer.default with name := "a-B".toList },
   .timer { Timer.default with name := "A_b__1".toList }, .timer { Timer.default with name := [] }]

example : itemStems asciiUnicode [] nameSamples = .ok
    ["Timer.A_b".toList, "Timer.a_B__1".toList, "Timer.A_b__1__1".toList, "Timer.unnamed".toList] := by
  decide +kernel

end Vpin
