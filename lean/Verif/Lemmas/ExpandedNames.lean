import Verif.Lemmas.ExpandedGuard
import Verif.Props.FileNames
/-
The names of the files of items.
-/
namespace Vpin

/-- a text is cut in one way only at a character that is not behind the cut -/
theorem cut_unique {c : Char} {a e a' e' : Str} (h : a ++ c :: e = a' ++ c :: e') (h1 : c ∉ e) (h2 : c ∉ e') :
    a = a' ∧ e = e' := by
  rcases List.append_eq_append_iff.1 h with ⟨x, hx, hy⟩ | ⟨x, hx, hy⟩
  · cases x with
    | nil =>
      rw [List.append_nil] at hx
      exact ⟨hx.symm, (List.cons.inj hy).2⟩
    | cons d x =>
      rw [List.cons_append] at hy
      obtain ⟨-, hy⟩ := List.cons.inj hy
      exact absurd (hy ▸ by simp) h1
  · cases x with
    | nil =>
      rw [List.append_nil] at hx
      exact ⟨hx, (List.cons.inj hy).2.symm⟩
    | cons d x =>
      rw [List.cons_append] at hy
      obtain ⟨-, hy⟩ := List.cons.inj hy
      exact absurd (hy ▸ by simp) h2

theorem fileName_inj {a a' e e' : Str} (h1 : '.' ∉ e) (h2 : '.' ∉ e') (h : fileName a e = fileName a' e') :
    a = a' ∧ e = e' := by
  unfold fileName at h
  simp only [List.append_assoc, List.singleton_append] at h
  exact cut_unique h h1 h2

theorem decimal_no_underscore (n : Nat) : '_' ∉ decimal n := by
  intro h
  have := (decimalF_digits (n + 1) n '_' h).2
  exact absurd this (by decide)

theorem decimal_no_slash (n : Nat) : '/' ∉ decimal n := by
  intro h
  have := (decimalF_digits (n + 1) n '/' h).1
  exact absurd this (by decide)

theorem decimal_no_dot (n : Nat) : '.' ∉ decimal n := by
  intro h
  have := (decimalF_digits (n + 1) n '.' h).1
  exact absurd this (by decide)

theorem frameStem_eq (b : Str) (i : Nat) : frameStem b i = (b ++ "_anim".toList) ++ '_' :: decimal i := by
  unfold frameStem
  rw [show "_anim_".toList = "_anim".toList ++ ['_'] from rfl]
  simp only [List.append_assoc, List.singleton_append]

theorem frameStem_inj {b b' : Str} {i i' : Nat} (h : frameStem b i = frameStem b' i') : b = b' ∧ i = i' := by
  rw [frameStem_eq, frameStem_eq] at h
  obtain ⟨h1, h2⟩ := cut_unique h (decimal_no_underscore i) (decimal_no_underscore i')
  exact ⟨List.append_cancel_right h1, decimal_inj h2⟩

/-- a name with a number is not that of a frame -/
theorem counter_ne_frame {s b : Str} {k i : Nat} : s ++ "__".toList ++ decimal k ≠ frameStem b i := by
  intro h
  rw [frameStem_eq, show "__".toList = ['_'] ++ ['_'] from rfl, ← List.append_assoc] at h
  rw [show s ++ ['_'] ++ ['_'] ++ decimal k = (s ++ ['_']) ++ '_' :: decimal k by simp] at h
  obtain ⟨h1, -⟩ := cut_unique h (decimal_no_underscore k) (decimal_no_underscore i)
  have := congrArg List.getLast? h1
  rw [List.getLast?_append, List.getLast?_append] at this
  have : some '_' = some 'm' := this
  exact absurd this (by decide)

/-! ### Stems -/

variable {U : Unicode}

/-- the stem belongs to the item -/
def StemOf (U : Unicode) (n : Str) (item : GameItemEnum) : Prop :=
  n = itemStem U item ∨ ∃ i, 1 ≤ i ∧ n = itemStem U item ++ "__".toList ++ decimal i

theorem itemStems_zip : ∀ (items : List GameItemEnum) (used ns : List Str), itemStems U used items = .ok ns →
    ∀ x ∈ ns.zip items, StemOf U x.1 x.2
  | [], used, ns, h => by cases h; intro x hx; cases hx
  | item :: items, used, ns, h => by
    obtain ⟨n, h1, -, -, h3⟩ := ensureUnique_ok (U := U) used (itemStem U item)
    unfold itemStems at h
    rw [h1] at h
    obtain ⟨ns', h4, h5⟩ := Res.unbind (x := itemStems U (U.lower n :: used) items) h
    cases h5
    intro x hx
    rw [List.zip_cons_cons] at hx
    rcases List.mem_cons.1 hx with rfl | hx
    · exact h3
    · exact itemStems_zip items _ ns' h4 x hx

theorem itemStems_nodup {items : List GameItemEnum} {ns : List Str} (h : itemStems U [] items = .ok ns) :
    ns.Nodup ∧ ns.length = items.length := by
  obtain ⟨ns', h1, h2, h3, -⟩ := itemStems_ok (U := U) items []
  rw [h] at h1
  cases h1
  refine ⟨?_, h2⟩
  unfold List.Nodup at h3
  rw [List.pairwise_map] at h3
  exact h3.imp fun hab e => hab (by rw [e])

/-- the name of an item as it is in its stem -/
def stemName (U : Unicode) (name : Str) : Str := escapedName U (if name = [] then "unnamed".toList else name)

theorem itemStem_eq (item : GameItemEnum) : itemStem U item = item.type_name ++ '.' :: stemName U item.name := by
  unfold itemStem stemName escapedName
  simp only [List.append_assoc, List.singleton_append]

theorem escaped_chars (name : Str) (c : Char) (h : c ∈ escapedName U name) : U.alnum c = true ∨ c = '_' := by
  obtain ⟨d, -, e⟩ := List.mem_map.1 h
  split at e
  · next h => exact .inl (e ▸ h)
  · exact .inr e.symm

theorem alnum_dot : U.alnum '.' = false := by rw [U.alnum_ascii _ (by decide)]; decide
theorem alnum_slash : U.alnum '/' = false := by rw [U.alnum_ascii _ (by decide)]; decide

theorem escaped_no_dot (name : Str) : '.' ∉ escapedName U name := by
  intro h
  rcases escaped_chars name _ h with h | h
  · rw [alnum_dot] at h; cases h
  · exact absurd h (by decide)

theorem escaped_no_slash (name : Str) : '/' ∉ escapedName U name := by
  intro h
  rcases escaped_chars name _ h with h | h
  · rw [alnum_slash] at h; cases h
  · exact absurd h (by decide)

theorem alnum_dash : U.alnum '-' = false := by rw [U.alnum_ascii _ (by decide)]; decide

theorem escaped_no_dash (name : Str) : '-' ∉ escapedName U name := by
  intro h
  rcases escaped_chars name _ h with h | h
  · rw [alnum_dash] at h; cases h
  · exact absurd h (by decide)

theorem type_no_dash (item : GameItemEnum) : '-' ∉ item.type_name := by
  intro h
  rcases (type_name_chars item _ h).2 with h | h <;> exact absurd h (by decide)

theorem type_no_dot (item : GameItemEnum) : '.' ∉ item.type_name := by
  intro h
  rcases (type_name_chars item _ h).2 with h | h <;> exact absurd h (by decide)

theorem type_no_slash (item : GameItemEnum) : '/' ∉ item.type_name := by
  intro h
  rcases (type_name_chars item _ h).2 with h | h <;> exact absurd h (by decide)

/-- the shape of a stem: type, dot, something without dots -/
theorem StemOf.shape {n : Str} {item : GameItemEnum} (h : StemOf U n item) :
    ∃ r, n = item.type_name ++ '.' :: r ∧ '.' ∉ r ∧ '/' ∉ r ∧
      (r = stemName U item.name ∨ ∃ i, r = stemName U item.name ++ "__".toList ++ decimal i) := by
  rcases h with h | ⟨i, -, h⟩
  · refine ⟨_, h.trans (itemStem_eq item), escaped_no_dot _, escaped_no_slash _, .inl rfl⟩
  · refine ⟨stemName U item.name ++ "__".toList ++ decimal i, ?_, ?_, ?_, .inr ⟨i, rfl⟩⟩
    · rw [h, itemStem_eq]; simp
    · intro hm
      rw [List.mem_append, List.mem_append] at hm
      rcases hm with (hm | hm) | hm
      · exact escaped_no_dot _ hm
      · exact absurd hm (by decide)
      · exact decimal_no_dot i hm
    · intro hm
      rw [List.mem_append, List.mem_append] at hm
      rcases hm with (hm | hm) | hm
      · exact escaped_no_slash _ hm
      · exact absurd hm (by decide)
      · exact decimal_no_slash i hm

theorem StemOf.no_slash {n : Str} {item : GameItemEnum} (h : StemOf U n item) : '/' ∉ n := by
  obtain ⟨r, rfl, -, h2, -⟩ := h.shape
  intro hm
  rcases List.mem_append.1 hm with hm | hm
  · exact type_no_slash item hm
  · rcases List.mem_cons.1 hm with hm | hm
    · exact absurd hm (by decide)
    · exact h2 hm

theorem decimal_no_dash (i : Nat) : '-' ∉ decimal i := by
  intro h
  have := (decimalF_digits (i + 1) i '-' h).1
  exact absurd this (by decide)

theorem StemOf.no_dash {n : Str} {item : GameItemEnum} (h : StemOf U n item) : '-' ∉ n := by
  have h1 : '-' ∉ itemStem U item := by
    rw [itemStem_eq]
    intro hm
    rcases List.mem_append.1 hm with hm | hm
    · exact type_no_dash item hm
    · rcases List.mem_cons.1 hm with hm | hm
      · exact absurd hm (by decide)
      · exact escaped_no_dash _ hm
  rcases h with rfl | ⟨i, -, rfl⟩
  · exact h1
  · intro hm
    rw [List.mem_append, List.mem_append] at hm
    rcases hm with (hm | hm) | hm
    · exact h1 hm
    · exact absurd hm (by decide)
    · exact decimal_no_dash i hm

/-! ### The end `.json` -/

theorem trimJsonRev_cases (s : Str) : trimJsonRev s = s ∨ ∃ rest, s = "nosj.".toList ++ rest := by
  unfold trimJsonRev
  split
  · next rest => exact .inr ⟨rest, rfl⟩
  · exact .inl rfl

theorem trimJson_of_not {s : Str} (h : ∀ a, s ≠ a ++ ".json".toList) : trimJson s = s := by
  unfold trimJson
  rcases trimJsonRev_cases s.reverse with e | ⟨rest, e⟩
  · rw [e, List.reverse_reverse]
  · have := congrArg List.reverse e
    rw [List.reverse_reverse, List.reverse_append] at this
    exact absurd this (h rest.reverse)

theorem trimJson_file {s : Str} (h : ∀ a, s ≠ a ++ ".json".toList) : trimJson (itemFile s) = s := by
  have h2 := trimJson_of_not h
  unfold trimJson at h2 ⊢
  unfold itemFile fileName
  have e : (s ++ ['.'] ++ "json".toList).reverse = 'n' :: 'o' :: 's' :: 'j' :: '.' :: s.reverse := by
    simp
  rw [e, trimJsonRev]
  exact h2

/-- a stem ends in `.json` only if the name is `json` -/
theorem StemOf.not_json {n : Str} {item : GameItemEnum} (h : StemOf U n item) (hn : item.name ≠ "json".toList) :
    ∀ a, n ≠ a ++ ".json".toList := by
  intro a e
  obtain ⟨r, e2, h1, -, h3⟩ := h.shape
  rw [e2, show ".json".toList = '.' :: "json".toList from rfl] at e
  obtain ⟨-, hr⟩ := cut_unique e h1 (by decide)
  subst hr
  have h4 : ∀ name : Str, "json".toList = escapedName U name → name = "json".toList := by
    intro name he
    have hc : ∀ c d : Char, c ≠ '_' → c = (if U.alnum d then d else '_') → d = c := by
      intro c d hc e
      split at e
      · exact e.symm
      · exact absurd e hc
    unfold escapedName at he
    match name, he with
    | [a, b, c, d], he =>
      simp only [List.map_cons, List.map_nil] at he
      have he : ['j', 's', 'o', 'n'] = _ := he
      simp only [List.cons.injEq, and_true] at he
      rw [hc _ _ (by decide) he.1, hc _ _ (by decide) he.2.1, hc _ _ (by decide) he.2.2.1,
        hc _ _ (by decide) he.2.2.2]
      rfl
    | [], he => exact absurd (congrArg List.length he) (by simp)
    | [_], he => exact absurd (congrArg List.length he) (by simp)
    | [_, _], he => exact absurd (congrArg List.length he) (by simp)
    | [_, _, _], he => exact absurd (congrArg List.length he) (by simp)
    | _ :: _ :: _ :: _ :: _ :: _, he => exact absurd (congrArg List.length he) (by simp)
  rcases h3 with h3 | ⟨i, h3⟩
  · unfold stemName at h3
    split at h3
    · exact absurd (h4 _ h3) (by decide)
    · exact hn (h4 _ h3)
  · have : '_' ∈ "json".toList := by rw [h3]; simp
    exact absurd this (by decide)

/-! ### Stems and frames -/

/-- a stem of a primitive is not that of a frame of a primitive -/
theorem StemOf.ne_frame {n n' : Str} {p p' : Primitive} (h : StemOf U n (.primitive p))
    (h' : StemOf U n' (.primitive p')) (ha : ¬ AnimName U p.name) (i : Nat) : n ≠ frameStem n' i := by
  intro e
  obtain ⟨r', e', -, -, -⟩ := h'.shape
  rcases h with h | ⟨k, -, h⟩
  · rw [itemStem_eq] at h
    have ht : (GameItemEnum.primitive p).type_name = (GameItemEnum.primitive p').type_name := rfl
    rw [h, e', ht] at e
    unfold frameStem at e
    rw [List.append_assoc, List.append_assoc, List.append_cancel_left_eq, List.cons_append] at e
    have hs : stemName U (GameItemEnum.primitive p).name = r' ++ "_anim_".toList ++ decimal i := by
      rw [(List.cons.inj e).2, List.append_assoc]
    unfold stemName at hs
    split at hs
    · have : '_' ∈ escapedName U "unnamed".toList := by rw [hs]; simp
      obtain ⟨d, hd, hd2⟩ := List.mem_map.1 this
      have hall : ∀ d ∈ "unnamed".toList, d.toNat < 128 ∧ d.isAlphanum = true ∧ d ≠ '_' := by decide
      obtain ⟨a1, a2, a3⟩ := hall d hd
      rw [U.alnum_ascii d a1, a2, if_pos rfl] at hd2
      exact a3 hd2
    · exact ha ⟨r', i, hs⟩
  · exact counter_ne_frame (h ▸ e)

end Vpin
