import Verif.Model.GameItem
/-!
The part group check.
-/
namespace Vpin

theorem partGroupLoop_cons (k : Nat) (d : List Str) (x : GameItemEnum) (rest : List GameItemEnum) :
    ∃ d', partGroupLoop k d (x :: rest)
        = (match x.part_group_name with
            | some g => if g ∈ d' then [] else [partGroupWarning k x g]
            | none => []) ++ partGroupLoop (k + 1) d' rest ∧
      ∀ g, g ∈ d' ↔ g ∈ d ∨ ∃ pg, x = .partGroup pg ∧ pg.name = g := by
  cases x with
  | partGroup pg =>
    refine ⟨pg.name :: d, rfl, fun g => ?_⟩
    simp only [List.mem_cons, GameItemEnum.partGroup.injEq, exists_eq_left', or_comm, eq_comm]
  | _ =>
    refine ⟨d, rfl, fun g => ?_⟩
    simp

theorem partGroupLoop_mem (items : List GameItemEnum) (w : Str) :
    ∀ (k : Nat) (defined : List Str), w ∈ partGroupLoop k defined items ↔
      ∃ i item group, items[i]? = some item ∧ item.part_group_name = some group ∧
        group ∉ defined ∧ (∀ j pg, j ≤ i → items[j]? = some (.partGroup pg) → pg.name ≠ group) ∧
        w = partGroupWarning (k + i) item group := by
  induction items with
  | nil => intro k d; simp [partGroupLoop]
  | cons x rest ih =>
    intro k d
    obtain ⟨d', e, hd2⟩ := partGroupLoop_cons k d x rest
    rw [e, List.mem_append, ih]
    constructor
    · rintro (h | ⟨i, item, group, h1, h2, h3, h4, h5⟩)
      · cases hp : x.part_group_name with
        | none => rw [hp] at h; cases h
        | some g =>
          rw [hp] at h
          by_cases hg : g ∈ d'
          · simp only [if_pos hg] at h; cases h
          · simp only [if_neg hg, List.mem_singleton] at h
            refine ⟨0, x, g, rfl, hp, fun hm => hg ((hd2 g).2 (.inl hm)), ?_, h⟩
            intro j pg hj hx hn
            obtain rfl : j = 0 := by omega
            simp only [List.getElem?_cons_zero, Option.some.injEq] at hx
            exact hg ((hd2 g).2 (.inr ⟨pg, hx, hn⟩))
      · refine ⟨i + 1, item, group, h1, h2, fun hm => h3 ((hd2 _).2 (.inl hm)), ?_, ?_⟩
        · intro j pg hj hx hn
          cases j with
          | zero =>
            simp only [List.getElem?_cons_zero, Option.some.injEq] at hx
            exact h3 ((hd2 _).2 (.inr ⟨pg, hx, hn⟩))
          | succ j => exact h4 j pg (by omega) hx hn
        · rw [h5]; congr 1; omega
    · rintro ⟨i, item, group, h1, h2, h3, h4, h5⟩
      have hnd : group ∉ d' := by
        intro hm
        rcases (hd2 _).1 hm with hm | ⟨pg, hx, hn⟩
        · exact h3 hm
        · exact h4 0 pg (Nat.zero_le _) (by rw [hx]; rfl) hn
      cases i with
      | zero =>
        simp only [List.getElem?_cons_zero, Option.some.injEq] at h1
        subst h1
        left
        rw [h2]
        simp only [if_neg hnd, List.mem_singleton]
        exact h5
      | succ i =>
        right
        refine ⟨i, item, group, h1, h2, hnd, ?_, ?_⟩
        · intro j pg hj hx
          exact h4 (j + 1) pg (by omega) hx
        · rw [h5]; congr 1; omega

theorem partGroupLoop_indices : ∀ (l : List GameItemEnum) (k : Nat) (defined : List Str), ∃ is : List Nat,
    is.length = (partGroupLoop k defined l).length ∧ is.Nodup ∧
    ∀ i, i ∈ is ↔ ∃ (item : GameItemEnum) (group : Str), l[i]? = some item ∧ item.part_group_name = some group ∧
      group ∉ defined ∧ (∀ j pg, j ≤ i → l[j]? = some (.partGroup pg) → pg.name ≠ group) := by
  intro l
  induction l with
  | nil => intro k d; exact ⟨[], rfl, List.nodup_nil, by simp⟩
  | cons x rest ih =>
    intro k d
    obtain ⟨d', e, hd2⟩ := partGroupLoop_cons k d x rest
    obtain ⟨is, h1, h2, h3⟩ := ih (k + 1) d'
    have hsucc : ∀ i, i + 1 ∈ is.map (· + 1) ↔ ∃ item group, (x :: rest)[i + 1]? = some item ∧
        item.part_group_name = some group ∧ group ∉ d ∧
        (∀ j pg, j ≤ i + 1 → (x :: rest)[j]? = some (.partGroup pg) → pg.name ≠ group) := by
      intro i
      rw [List.mem_map]
      have : (∃ a ∈ is, a + 1 = i + 1) ↔ i ∈ is :=
        ⟨fun ⟨a, ha, hai⟩ => by obtain rfl : a = i := by omega
                                exact ha, fun h => ⟨i, h, rfl⟩⟩
      rw [this, h3]
      constructor
      · rintro ⟨item, group, a1, a2, a3, a4⟩
        refine ⟨item, group, a1, a2, fun hm => a3 ((hd2 _).2 (.inl hm)), ?_⟩
        intro j pg hj hx hn
        cases j with
        | zero =>
          simp only [List.getElem?_cons_zero, Option.some.injEq] at hx
          exact a3 ((hd2 _).2 (.inr ⟨pg, hx, hn⟩))
        | succ j => exact a4 j pg (by omega) hx hn
      · rintro ⟨item, group, a1, a2, a3, a4⟩
        refine ⟨item, group, a1, a2, ?_, fun j pg hj hx => a4 (j + 1) pg (by omega) hx⟩
        intro hm
        rcases (hd2 _).1 hm with hm | ⟨pg, hx, hn⟩
        · exact a3 hm
        · exact a4 0 pg (Nat.zero_le _) (by rw [hx]; rfl) hn
    have hno : ∀ P : Nat → Prop, (∀ a ∈ is.map (· + 1), a ≠ 0) := by
      intro _ a ha
      obtain ⟨b, -, rfl⟩ := List.mem_map.1 ha
      omega
    have hnd : (is.map (· + 1)).Nodup :=
      List.Pairwise.map _ (fun a b hab => by omega) h2
    by_cases hx : ∃ g, x.part_group_name = some g ∧ g ∉ d'
    · obtain ⟨g, hg1, hg2⟩ := hx
      refine ⟨0 :: is.map (· + 1), ?_, ?_, ?_⟩
      · rw [e, hg1]
        simp only [if_neg hg2]
        simp [h1]
      · exact List.nodup_cons.2 ⟨fun h => hno (fun _ => True) 0 h rfl, hnd⟩
      · intro i
        cases i with
        | succ i =>
          rw [List.mem_cons, ← hsucc i]
          simp
        | zero =>
          refine ⟨fun _ => ⟨x, g, rfl, hg1, fun hm => hg2 ((hd2 _).2 (.inl hm)), ?_⟩, fun _ => by simp⟩
          intro j pg hj hxx hn
          obtain rfl : j = 0 := by omega
          simp only [List.getElem?_cons_zero, Option.some.injEq] at hxx
          exact hg2 ((hd2 _).2 (.inr ⟨pg, hxx, hn⟩))
    · refine ⟨is.map (· + 1), ?_, hnd, ?_⟩
      · rw [e]
        cases hp : x.part_group_name with
        | none => simp [h1]
        | some g =>
          have hg : g ∈ d' := Classical.byContradiction fun h => hx ⟨g, hp, h⟩
          simp only [if_pos hg]
          simp [h1]
      · intro i
        cases i with
        | succ i => exact hsucc i
        | zero =>
          refine ⟨fun h => absurd rfl (hno (fun _ => True) 0 h), ?_⟩
          rintro ⟨item, group, a1, a2, a3, a4⟩
          simp only [List.getElem?_cons_zero, Option.some.injEq] at a1
          subst a1
          refine absurd ⟨group, a2, fun hm => ?_⟩ hx
          rcases (hd2 _).1 hm with hm | ⟨pg, hxx, hn⟩
          · exact a3 hm
          · exact a4 0 pg (Nat.zero_le _) (by rw [hxx]; rfl) hn

end Vpin
