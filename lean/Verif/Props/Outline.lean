import Mathlib.Tactic.Ring
import Mathlib.Tactic.Linarith
import Mathlib.Tactic.NormNum
import Mathlib.Tactic.LinearCombination
import Mathlib.Data.List.Count
import Mathlib.Data.List.Sublists
import Mathlib.Algebra.Order.BigOperators.Group.List
import Mathlib.Algebra.BigOperators.Group.List.Basic
import Verif.Spec.Outline
import Verif.Props.Polygon
import Verif.Lemmas.Res
/-
C95: what the triangles of an outline cover, apart from rounding.
-/
namespace Vpin
open RealOutline

/-! ### The same calculations -/

section
variable [Arith]

theorem wallEdges_same (rgv : List (F32 × F32)) (vpoly : List Nat) (p1 p3 : F32 × F32) : ∀ k i,
    wallEdgesClear rgv vpoly p1 p3 k i = Any.wallEdgesClear rgv vpoly p1 p3 k i := by
  intro k
  induction k with
  | zero => intro i; rfl
  | succ k ih =>
    intro i
    unfold wallEdgesClear Any.wallEdgesClear
    simp only [ih]
    rfl

theorem wallAdvance_same (rgv : List (F32 × F32)) : wallAdvance rgv = Any.wallAdvance rgv := by
  funext vpoly a b c pre post
  unfold wallAdvance Any.wallAdvance
  simp only [wallEdges_same]
  rfl

theorem getOrPanic_map {α β : Type} (f : α → β) (l : List α) (i : Nat) :
    getOrPanic (l.map f) i = (getOrPanic l i).map f := by
  unfold getOrPanic
  rw [List.getElem?_map]
  cases l[i]? <;> rfl

theorem polyEdges_same (vs : List RenderVertex2D) (vpoly : List Nat) (a c : Nat) (p1 p3 : F32 × F32) : ∀ k i,
    polyEdgesClear vs vpoly a c p1 p3 k i = Any.polyEdgesClear (vs.map (·.xy)) vpoly a c p1 p3 k i := by
  intro k
  induction k with
  | zero => intro i; rfl
  | succ k ih =>
    intro i
    unfold polyEdgesClear Any.polyEdgesClear
    simp only [ih, getOrPanic_map]
    cases getOrPanic vpoly i with
    | error e => rfl
    | ok j1 =>
      cases h1 : getOrPanic vs j1 with
      | error e => simp only [bind, Except.bind, h1]; rfl
      | ok v1 =>
        cases getOrPanic vpoly (if i < vpoly.length - 1 then i + 1 else 0) with
        | error e => simp only [bind, Except.bind, h1]; rfl
        | ok j2 =>
          cases h2 : getOrPanic vs j2 with
          | error e => simp only [bind, Except.bind, h1, h2]; rfl
          | ok v2 => simp only [bind, Except.bind, h1, h2]; rfl

theorem polyAdvance_same (vs : List RenderVertex2D) : polyAdvance vs = Any.polyAdvance (vs.map (·.xy)) := by
  funext vpoly a b c pre post
  unfold polyAdvance Any.polyAdvance
  simp only [polyEdges_same, getOrPanic_map]
  cases h1 : getOrPanic vs a with
  | error e => rfl
  | ok v1 =>
    cases h2 : getOrPanic vs b with
    | error e => rfl
    | ok v2 =>
      cases h3 : getOrPanic vs c with
      | error e => rfl
      | ok v3 =>
        cases h4 : getOrPanic vs pre with
        | error e => rfl
        | ok v4 =>
          cases h5 : getOrPanic vs post with
          | error e => rfl
          | ok v5 => rfl

theorem findCorner_same (vs : List RenderVertex2D) : findCornerVertex vs = Any.findCornerVertex (vs.map (·.xy)) := by
  unfold findCornerVertex Any.findCornerVertex
  rw [List.foldl_map]
  rfl

theorem isClockwise_same (vs : List RenderVertex2D) : isClockwise vs = Any.isClockwise (vs.map (·.xy)) := by
  unfold isClockwise Any.isClockwise
  simp only [List.length_map, findCorner_same, getOrPanic_map]
  split
  · rfl
  · cases h1 : getOrPanic vs ((Any.findCornerVertex (vs.map (·.xy)) + vs.length - 1) % vs.length) with
    | error e => simp only [bind, Except.bind, h1]; rfl
    | ok a =>
      cases h2 : getOrPanic vs (Any.findCornerVertex (vs.map (·.xy))) with
      | error e => simp only [bind, Except.bind, h1, h2]; rfl
      | ok b =>
        cases h3 : getOrPanic vs ((Any.findCornerVertex (vs.map (·.xy)) + 1) % vs.length) with
        | error e => simp only [bind, Except.bind, h1, h2, h3]; rfl
        | ok c => simp only [bind, Except.bind, h1, h2, h3]; rfl

/-- **C95** the triangulations for any numbers are those of the code -/
theorem C95_same (points : List (F32 × F32)) (vs : List RenderVertex2D) :
    triangulatePolygon points = Any.triangulatePolygon points ∧
    polygonToTriangles vs = Any.polygonToTriangles (vs.map (·.xy)) := by
  constructor
  · unfold triangulatePolygon Any.triangulatePolygon
    rw [wallAdvance_same]
    rfl
  · unfold polygonToTriangles Any.polygonToTriangles
    rw [isClockwise_same, polyAdvance_same, List.length_map]

end

/-! ### Areas and windings -/

theorem turn_swap (a b c : Point) : turn b a c = - turn a b c := by unfold turn; ring
theorem turn_cycle (a b c : Point) : turn b c a = turn a b c := by unfold turn; ring
theorem turn_same (a c : Point) : turn a a c = 0 := by unfold turn; ring
theorem turn_back (a c : Point) : turn a c a = 0 := by unfold turn; ring

theorem passes_swap (q : Point) (a b : Point) : passes q (b, a) = - passes q (a, b) := by
  unfold passes
  dsimp only
  rw [turn_swap a b q]
  by_cases h1 : a.2 ≤ q.2 ∧ q.2 < b.2
  · have h2 : ¬ (b.2 ≤ q.2 ∧ q.2 < a.2) := by rintro ⟨h, _⟩; linarith [h1.2]
    by_cases h3 : 0 < turn a b q
    · rw [if_neg (fun h => h2 ⟨h.1, h.2.1⟩), if_pos ⟨h1.1, h1.2, by linarith⟩, if_pos ⟨h1.1, h1.2, h3⟩]
    · rw [if_neg (fun h => h2 ⟨h.1, h.2.1⟩), if_neg (fun h => h3 (by linarith [h.2.2])), if_neg (fun h => h3 h.2.2),
        if_neg (fun h => h2 ⟨h.1, h.2.1⟩)]; rfl
  · by_cases h2 : b.2 ≤ q.2 ∧ q.2 < a.2
    · by_cases h3 : turn a b q < 0
      · rw [if_pos ⟨h2.1, h2.2, by linarith⟩, if_neg (fun h => h1 ⟨h.1, h.2.1⟩), if_pos ⟨h2.1, h2.2, h3⟩]; rfl
      · rw [if_neg (fun h => h3 (by linarith [h.2.2])), if_neg (fun h => h1 ⟨h.1, h.2.1⟩),
          if_neg (fun h => h1 ⟨h.1, h.2.1⟩), if_neg (fun h => h3 h.2.2)]; rfl
    · rw [if_neg (fun h => h2 ⟨h.1, h.2.1⟩), if_neg (fun h => h1 ⟨h.1, h.2.1⟩), if_neg (fun h => h1 ⟨h.1, h.2.1⟩),
        if_neg (fun h => h2 ⟨h.1, h.2.1⟩)]; rfl

theorem passes_same (q : Point) (a : Point) : passes q (a, a) = 0 := by
  have := passes_swap q a a
  omega

/-- one step, by heights over the point and side -/
noncomputable def stepPasses (u v s : ℝ) : Int :=
  if u ≤ 0 ∧ 0 < v ∧ 0 < s then 1 else if v ≤ 0 ∧ 0 < u ∧ s < 0 then -1 else 0

theorem signs {s u : ℝ} : (0 < s → 0 < u → 0 < s * u) ∧ (s < 0 → 0 < u → s * u < 0) ∧ (0 < s → u ≤ 0 → s * u ≤ 0) ∧
    (s < 0 → u ≤ 0 → 0 ≤ s * u) :=
  ⟨mul_pos, mul_neg_of_neg_of_pos, fun h h' => mul_nonpos_of_nonneg_of_nonpos h.le h', fun h h' => mul_nonneg_of_nonpos_of_nonpos h.le h'⟩

theorem stepPasses_around (u v w s1 s2 s3 : ℝ) (n1 : s1 ≠ 0) (n2 : s2 ≠ 0) (n3 : s3 ≠ 0) (h : 0 ≤ s1 + s2 + s3)
    (hy : s2 * u + s3 * v + s1 * w = 0) (h0 : ¬ (u = 0 ∧ v = 0)) :
    ((0 < s1 ∧ 0 < s2 ∧ 0 < s3) → stepPasses u v s1 + stepPasses v w s2 + stepPasses w u s3 = 1) ∧
    (¬ (0 < s1 ∧ 0 < s2 ∧ 0 < s3) → stepPasses u v s1 + stepPasses v w s2 + stepPasses w u s3 = 0) := by
  obtain ⟨a1, a2, a3, a4⟩ := signs (s := s2) (u := u)
  obtain ⟨b1, b2, b3, b4⟩ := signs (s := s3) (u := v)
  obtain ⟨c1, c2, c3, c4⟩ := signs (s := s1) (u := w)
  have up : ∀ {u v s : ℝ}, u ≤ 0 → 0 < v → 0 < s → stepPasses u v s = 1 := fun h1 h2 h3 => if_pos ⟨h1, h2, h3⟩
  have down : ∀ {u v s : ℝ}, v ≤ 0 → 0 < u → s < 0 → stepPasses u v s = -1 := fun h1 h2 h3 => by
    unfold stepPasses; rw [if_neg (fun h => by linarith [h.1]), if_pos ⟨h1, h2, h3⟩]
  have low : ∀ {u v s : ℝ}, u ≤ 0 → v ≤ 0 → stepPasses u v s = 0 := fun h1 h2 => by
    unfold stepPasses; rw [if_neg (fun h => by linarith [h.2.1]), if_neg (fun h => by linarith [h.2.1])]
  have high : ∀ {u v s : ℝ}, 0 < u → 0 < v → stepPasses u v s = 0 := fun h1 h2 => by
    unfold stepPasses; rw [if_neg (fun h => by linarith [h.1]), if_neg (fun h => by linarith [h.1])]
  have up0 : ∀ {u v s : ℝ}, u ≤ 0 → 0 < v → s < 0 → stepPasses u v s = 0 := fun h1 h2 h3 => by
    unfold stepPasses; rw [if_neg (fun h => by linarith [h.2.2]), if_neg (fun h => by linarith [h.2.1])]
  have down0 : ∀ {u v s : ℝ}, v ≤ 0 → 0 < u → 0 < s → stepPasses u v s = 0 := fun h1 h2 h3 => by
    unfold stepPasses; rw [if_neg (fun h => by linarith [h.1]), if_neg (fun h => by linarith [h.2.2])]
  rcases lt_or_gt_of_ne n1 with m1 | m1 <;> rcases lt_or_gt_of_ne n2 with m2 | m2 <;>
    rcases lt_or_gt_of_ne n3 with m3 | m3 <;>
    rcases le_or_gt u 0 with hu | hu <;> rcases le_or_gt v 0 with hv | hv <;> rcases le_or_gt w 0 with hw | hw <;>
    first
    | (exfalso; linarith)
    | (exfalso; simp only [m1, m2, m3, hu, hv, hw, forall_true_left] at a1 a2 a3 a4 b1 b2 b3 b4 c1 c2 c3 c4; linarith)
    | (refine ⟨fun hp => ?_, fun hn => ?_⟩
       · first
         | (exfalso; linarith [hp.1, hp.2.1, hp.2.2])
         | (simp only [up, low, high, down0, hu, hv, hw, m1, m2, m3]; rfl)
         | (exfalso
            have e1 := a3 m2 hu
            have e2 := b3 m3 hv
            have e3 := c3 m1 hw
            have z1 : s2 * u = 0 := by linarith
            have z2 : s3 * v = 0 := by linarith
            exact h0 ⟨(mul_eq_zero.1 z1).resolve_left n2, (mul_eq_zero.1 z2).resolve_left n3⟩)
       · first
         | exact absurd (And.intro m1 (And.intro m2 m3)) hn
         | (simp only [up, down, low, high, up0, down0, hu, hv, hw, m1, m2, m3]; rfl))

/-- a counter-clockwise triangle goes once around the points inside of it, and not around others -/
theorem passes_triangle {a b c q : Point} (h : 0 ≤ turn a b c) (hab : a ≠ b → turn a b q ≠ 0)
    (hbc : b ≠ c → turn b c q ≠ 0) (hca : c ≠ a → turn c a q ≠ 0) :
    ((0 < turn a b q ∧ 0 < turn b c q ∧ 0 < turn c a q) → passes q (a, b) + passes q (b, c) + passes q (c, a) = 1) ∧
    (¬ (0 < turn a b q ∧ 0 < turn b c q ∧ 0 < turn c a q) →
      passes q (a, b) + passes q (b, c) + passes q (c, a) = 0) := by
  by_cases e1 : a = b
  · subst e1
    refine ⟨fun h => absurd h.1 (by rw [turn_same]; exact lt_irrefl _), fun _ => ?_⟩
    rw [passes_same, passes_swap q c a]; omega
  by_cases e2 : b = c
  · subst e2
    refine ⟨fun h => absurd h.2.1 (by rw [turn_same]; exact lt_irrefl _), fun _ => ?_⟩
    rw [passes_same, passes_swap q b a]; omega
  by_cases e3 : c = a
  · subst e3
    refine ⟨fun h => absurd h.2.2 (by rw [turn_same]; exact lt_irrefl _), fun _ => ?_⟩
    rw [passes_same, passes_swap q c b]; omega
  have n1 := hab e1
  have n2 := hbc e2
  have n3 := hca e3
  have hs : turn a b q + turn b c q + turn c a q = turn a b c := by unfold turn; ring
  have hy : turn b c q * (a.2 - q.2) + turn c a q * (b.2 - q.2) + turn a b q * (c.2 - q.2) = 0 := by unfold turn; ring
  have hp : ∀ x y : Point, passes q (x, y) = stepPasses (x.2 - q.2) (y.2 - q.2) (turn x y q) := by
    intro x y
    unfold passes stepPasses
    simp only [sub_nonpos, sub_pos]
  rw [hp, hp, hp]
  refine stepPasses_around _ _ _ _ _ _ n1 n2 n3 (by rw [hs]; exact h) hy ?_
  rintro ⟨hu, hv⟩
  refine n1 ?_
  unfold turn
  linear_combination (q.1 - b.1) * hu - (q.1 - a.1) * hv

/-! ### From edges to triangles -/

section
variable {p : Nat → Point} {ts : List Tri} {rim rest : List Nat}

theorem sidesOf_map (p : Nat → Point) (l : List Nat) : sidesOf (l.map p) = (loopEdges l).map fun e => (p e.1, p e.2) := by
  unfold sidesOf loopEdges
  rw [← List.map_tail, ← List.map_take, ← List.map_append, List.zip_map]
  rfl

theorem winding_map (p : Nat → Point) (l : List Nat) (q : Point) :
    winding (l.map p) q = esum (fun u v => passes q (p u, p v)) (loopEdges l) := by
  unfold winding
  rw [sidesOf_map, List.map_map]
  rfl

theorem passes_antisym (p : Nat → Point) (q : Point) : Antisym fun u v => passes q (p u, p v) :=
  fun u v => passes_swap q (p v) (p u)

/-- whatever the orientation of the triangles: together they go around a point as often as their rims -/
theorem around_of_rims (h : Balanced (triEdges ts ++ loopEdges rim ++ loopEdges rest.reverse)) (p : Nat → Point) (q : Point) :
    (ts.map fun t => passes q (p t.1, p t.2.1) + passes q (p t.2.1, p t.2.2) + passes q (p t.2.2, p t.1)).sum
      = winding (rest.map p) q - winding (rim.map p) q := by
  have h1 := (balanced_iff _).1 h _ (passes_antisym p q)
  rw [esum_append, esum_append, esum_loop_reverse _ (passes_antisym p q)] at h1
  rw [winding_map, winding_map]
  have h2 : ∀ ts : List Tri, (ts.map fun t => passes q (p t.1, p t.2.1) + passes q (p t.2.1, p t.2.2) +
      passes q (p t.2.2, p t.1)).sum = esum (fun u v => passes q (p u, p v)) (triEdges ts) := by
    intro ts
    induction ts with
    | nil => rfl
    | cons t ts ih =>
      rw [List.map_cons, List.sum_cons, ih]
      have : triEdges (t :: ts) = t.edges ++ triEdges ts := rfl
      rw [this, esum_append]
      unfold Tri.edges
      simp only [esum_cons, esum_nil]
      omega
  rw [h2]
  omega

open Classical in
theorem count_of_rims (h : Balanced (triEdges ts ++ loopEdges rim ++ loopEdges rest.reverse)) {q : Point}
    (ht : ∀ t ∈ ts, 0 ≤ turn (p t.1) (p t.2.1) (p t.2.2))
    (hq : ∀ t ∈ ts, (p t.1 ≠ p t.2.1 → turn (p t.1) (p t.2.1) q ≠ 0) ∧ (p t.2.1 ≠ p t.2.2 → turn (p t.2.1) (p t.2.2) q ≠ 0) ∧
      (p t.2.2 ≠ p t.1 → turn (p t.2.2) (p t.1) q ≠ 0)) :
    ((ts.filter fun t => InTriangle p q t).length : Int) = winding (rest.map p) q - winding (rim.map p) q := by
  rw [← around_of_rims h p q]
  clear h
  induction ts with
  | nil => rfl
  | cons t ts ih =>
    have h1 := passes_triangle (ht t List.mem_cons_self) (hq t List.mem_cons_self).1 (hq t List.mem_cons_self).2.1
      (hq t List.mem_cons_self).2.2
    have h2 := ih (fun x hx => ht x (List.mem_cons_of_mem t hx)) (fun x hx => hq x (List.mem_cons_of_mem t hx))
    rw [List.map_cons, List.sum_cons, List.filter_cons, ← h2]
    by_cases hi : InTriangle p q t
    · rw [if_pos (by simpa using hi), h1.1 hi, List.length_cons]; push_cast; omega
    · rw [if_neg (by simpa using hi), h1.2 hi]; omega

theorem sum_swap {f : Nat → Nat → ℝ} (hf : ∀ u v, f v u = - f u v) {es : List (Nat × Nat)} (h : Balanced es) :
    (es.map fun e => f e.1 e.2).sum = 0 := by
  have hp : (es.map Prod.swap).Perm es := by
    rw [List.perm_iff_count]
    rintro ⟨u, v⟩
    have : (es.map Prod.swap).count (u, v) = es.count (v, u) := by
      have := List.count_map_of_injective es Prod.swap Prod.swap_injective (v, u)
      exact this
    rw [this, h]
  have h1 : ((es.map Prod.swap).map fun e => f e.1 e.2).sum = (es.map fun e => f e.1 e.2).sum := (hp.map _).sum_eq
  have h2 : ∀ l : List (Nat × Nat), ((l.map Prod.swap).map fun e => f e.1 e.2).sum = - (l.map fun e => f e.1 e.2).sum := by
    intro l
    induction l with
    | nil => simp
    | cons e l ih => simp only [List.map_cons, List.sum_cons, ih, Prod.fst_swap, Prod.snd_swap, hf e.1 e.2]; ring
  rw [h2] at h1
  linarith

theorem area_map (p : Nat → Point) (l : List Nat) :
    area (l.map p) = ((loopEdges l).map fun e => (p e.1).1 * (p e.2).2 - (p e.2).1 * (p e.1).2).sum := by
  unfold area
  rw [sidesOf_map, List.map_map]
  rfl

theorem area_map_reverse (p : Nat → Point) (l : List Nat) : area (l.reverse.map p) = - area (l.map p) := by
  have hb : Balanced (loopEdges l ++ loopEdges l.reverse) := by
    rw [balanced_iff]
    intro g hg
    rw [esum_append, esum_loop_reverse g hg]
    omega
  have := sum_swap (f := fun u v => (p u).1 * (p v).2 - (p v).1 * (p u).2) (fun u v => by ring) hb
  rw [List.map_append, List.sum_append, ← area_map, ← area_map] at this
  linarith

theorem winding_map_reverse (p : Nat → Point) (l : List Nat) (q : Point) :
    winding (l.reverse.map p) q = - winding (l.map p) q := by
  rw [winding_map, winding_map, esum_loop_reverse _ (passes_antisym p q)]

/-- the areas of the triangles add up to the area between the rims -/
theorem areas_of_rims (h : Balanced (triEdges ts ++ loopEdges rim ++ loopEdges rest.reverse)) (p : Nat → Point) :
    (ts.map fun t => turn (p t.1) (p t.2.1) (p t.2.2)).sum = area (rest.map p) - area (rim.map p) := by
  have h1 := sum_swap (f := fun u v => (p u).1 * (p v).2 - (p v).1 * (p u).2) (fun u v => by ring) h
  rw [List.map_append, List.sum_append, List.map_append, List.sum_append, ← area_map, ← area_map, area_map_reverse] at h1
  have h2 : ∀ ts : List Tri, (ts.map fun t => turn (p t.1) (p t.2.1) (p t.2.2)).sum
      = ((triEdges ts).map fun e => (p e.1).1 * (p e.2).2 - (p e.2).1 * (p e.1).2).sum := by
    intro ts
    induction ts with
    | nil => rfl
    | cons t ts ih =>
      have : triEdges (t :: ts) = t.edges ++ triEdges ts := rfl
      rw [List.map_cons, List.sum_cons, ih, this, List.map_append, List.sum_append]
      congr 1
      simp only [Tri.edges, List.map_cons, List.map_nil, List.sum_cons, List.sum_nil]
      unfold turn
      ring
  rw [h2]
  linarith

theorem map_pointOf (l : List Point) : (List.range l.length).map (pointOf l) = l := by
  apply List.ext_getElem (by simp)
  intro i h1 h2
  simp [pointOf, List.getD_eq_getElem?_getD, List.getElem?_eq_getElem h2]

theorem pointOf_mem {l : List Point} {i : Nat} (h : i < l.length) : pointOf l i ∈ l := by
  rw [pointOf, List.getD_eq_getElem?_getD, List.getElem?_eq_getElem h]
  exact List.getElem_mem h

theorem getOrPanic_point {l : List Point} {i : Nat} (h : i < l.length) : getOrPanic l i = .ok (pointOf l i) := by
  rw [getOrPanic_ok h, pointOf, List.getD_eq_getElem?_getD, List.getElem?_eq_getElem h]
  rfl

end

/-! ### The triangulations with real numbers -/

section
variable {α : Type} [Any.Outline α]

theorem anyWallEdges_ok (rgv : List (α × α)) (vpoly : List Nat)
    (h : ∀ v ∈ vpoly, v < rgv.length) (p1 p3 : α × α) :
    ∀ k i, i + k ≤ vpoly.length → ∃ r, Any.wallEdgesClear rgv vpoly p1 p3 k i = .ok r := by
  intro k
  induction k with
  | zero => intro i _; exact ⟨_, rfl⟩
  | succ k ih =>
    intro i hi
    have hj : (if i < vpoly.length - 1 then i + 1 else 0) < vpoly.length := by split <;> omega
    unfold Any.wallEdgesClear
    generalize (if i < vpoly.length - 1 then i + 1 else 0) = j at hj ⊢
    simp only [getOrPanic_ok (show i < vpoly.length by omega), getOrPanic_ok hj,
      getOrPanic_ok (h _ (List.getElem_mem (show i < vpoly.length by omega))),
      getOrPanic_ok (h _ (List.getElem_mem hj)), bind, Except.bind]
    split
    · exact ih (i + 1) (by omega)
    · split
      · exact ih (i + 1) (by omega)
      · split
        · exact ⟨_, rfl⟩
        · exact ih (i + 1) (by omega)

theorem anyWall_ok (rgv : List (α × α)) : AdvOk rgv.length (Any.wallAdvance rgv) := by
  intro poly hp a b c pre post ha hb hc hpre hpost
  unfold Any.wallAdvance
  simp only [getOrPanic_ok ha, getOrPanic_ok hb, getOrPanic_ok hc, getOrPanic_ok hpre,
    getOrPanic_ok hpost, bind, Except.bind]
  split
  · exact ⟨_, rfl⟩
  · exact anyWallEdges_ok rgv poly hp _ _ _ _ (by omega)

theorem anyPolyEdges_ok (vs : List (α × α)) (vpoly : List Nat)
    (h : ∀ v ∈ vpoly, v < vs.length) (a c : Nat) (p1 p3 : α × α) :
    ∀ k i, i + k ≤ vpoly.length → ∃ r, Any.polyEdgesClear vs vpoly a c p1 p3 k i = .ok r := by
  intro k
  induction k with
  | zero => intro i _; exact ⟨_, rfl⟩
  | succ k ih =>
    intro i hi
    have hj : (if i < vpoly.length - 1 then i + 1 else 0) < vpoly.length := by split <;> omega
    unfold Any.polyEdgesClear
    generalize (if i < vpoly.length - 1 then i + 1 else 0) = j at hj ⊢
    simp only [getOrPanic_ok (show i < vpoly.length by omega), getOrPanic_ok hj,
      getOrPanic_ok (h _ (List.getElem_mem (show i < vpoly.length by omega))),
      getOrPanic_ok (h _ (List.getElem_mem hj)), bind, Except.bind]
    split
    · exact ih (i + 1) (by omega)
    · split
      · exact ih (i + 1) (by omega)
      · split
        · exact ⟨_, rfl⟩
        · exact ih (i + 1) (by omega)

theorem anyPoly_ok (vs : List (α × α)) : AdvOk vs.length (Any.polyAdvance vs) := by
  intro poly hp a b c pre post ha hb hc hpre hpost
  unfold Any.polyAdvance
  simp only [getOrPanic_ok ha, getOrPanic_ok hb, getOrPanic_ok hc, getOrPanic_ok hpre,
    getOrPanic_ok hpost, bind, Except.bind]
  split
  · exact ⟨_, rfl⟩
  · exact anyPolyEdges_ok vs poly hp _ _ _ _ _ _ (by omega)

theorem anyCorner_lt (vs : List (α × α)) (h : vs ≠ []) : Any.findCornerVertex vs < vs.length := by
  have key : ∀ (l : List (α × α)) (i best : Nat) (minY minX : α), best < i ∨ best = 0 →
      let r := l.foldl (fun (i, best, minY, minX) v =>
        if Any.Outline.lt minY v.2 then (i + 1, best, minY, minX)
        else if (Any.Outline.eq v.2 minY) && Any.Outline.le minX v.1 then (i + 1, best, minY, minX)
        else (i + 1, i, v.2, v.1)) (i, best, minY, minX)
      r.2.1 < i + l.length ∨ r.2.1 = 0 := by
    intro l
    induction l with
    | nil => intro i best _ _ hb; simpa using hb
    | cons v l ih =>
      intro i best minY minX hb
      simp only [List.foldl_cons, List.length_cons]
      split
      · have := ih (i + 1) best minY minX (by omega); dsimp only at this; omega
      · split
        · have := ih (i + 1) best minY minX (by omega); dsimp only at this; omega
        · have := ih (i + 1) i v.2 v.1 (by omega); dsimp only at this; omega
  have : Any.findCornerVertex vs < 0 + vs.length ∨ Any.findCornerVertex vs = 0 :=
    key vs 0 0 Any.Outline.huge Any.Outline.huge (Or.inr rfl)
  have hl : 0 < vs.length := List.length_pos_iff.2 h
  omega

end

section
attribute [local instance] realOutline

theorem real_dot (a b c : Point) : Any.dot2d a b c = - turn a b c := by
  show (b.1 - a.1) * (b.2 - c.2) - (b.2 - a.2) * (b.1 - c.1) = _
  unfold turn
  ring

theorem not_bad {a b c pre post : Point} (h : Any.badAngle a b c pre post = false) : 0 ≤ turn a c b := by
  unfold Any.badAngle at h
  rw [Bool.or_eq_false_iff, Bool.or_eq_false_iff] at h
  have := h.1.1
  rw [real_dot] at this
  have h2 : ¬ (- turn a b c < 0) := of_decide_eq_false this
  have : turn a c b = - turn a b c := by unfold turn; ring
  rw [this]
  exact not_lt.1 h2

theorem anyWall_true {l : List Point} {poly a b c pre post} (ha : a < l.length) (hb : b < l.length) (hc : c < l.length)
    (h : Any.wallAdvance l poly a b c pre post = .ok true) : 0 ≤ turn (pointOf l a) (pointOf l c) (pointOf l b) := by
  unfold Any.wallAdvance at h
  rw [getOrPanic_point ha, getOrPanic_point hb, getOrPanic_point hc] at h
  obtain ⟨x, hx, h⟩ := Res.unbind h
  cases hx
  obtain ⟨x, hx, h⟩ := Res.unbind h
  cases hx
  obtain ⟨x, hx, h⟩ := Res.unbind h
  cases hx
  obtain ⟨x, hx, h⟩ := Res.unbind h
  obtain ⟨y, hy, h⟩ := Res.unbind h
  split at h
  · exact absurd h (by simp)
  · rename_i hbad
    exact not_bad (Bool.eq_false_iff.2 hbad)

theorem anyPoly_true {l : List Point} {poly a b c pre post} (ha : a < l.length) (hb : b < l.length) (hc : c < l.length)
    (h : Any.polyAdvance l poly a b c pre post = .ok true) : 0 ≤ turn (pointOf l a) (pointOf l c) (pointOf l b) := by
  unfold Any.polyAdvance at h
  rw [getOrPanic_point ha, getOrPanic_point hb, getOrPanic_point hc] at h
  obtain ⟨x, hx, h⟩ := Res.unbind h
  cases hx
  obtain ⟨x, hx, h⟩ := Res.unbind h
  cases hx
  obtain ⟨x, hx, h⟩ := Res.unbind h
  cases hx
  obtain ⟨x, hx, h⟩ := Res.unbind h
  obtain ⟨y, hy, h⟩ := Res.unbind h
  split at h
  · exact absurd h (by simp)
  · rename_i hbad
    exact not_bad (Bool.eq_false_iff.2 hbad)

/-- from the loop to the statements below -/
theorem clipped_covers {l : List Point} {adv} (hadv : AdvOk l.length adv)
    (htrue : ∀ {poly a b c pre post}, a < l.length → b < l.length → c < l.length → adv poly a b c pre post = .ok true →
      0 ≤ turn (pointOf l a) (pointOf l c) (pointOf l b)) (h3 : 3 ≤ l.length) (cw : Bool) :
    ∃ ts rest, clipEars adv (l.length - 2) (if cw then (List.range l.length).reverse else List.range l.length) = .ok ts ∧
      rest.Sublist l ∧ rest.length + ts.length = l.length ∧ Covers l rest ts := by
  obtain ⟨ts, h, -, hr, -, -, ht, ⟨rest, hsub, hlen, hbal⟩, -⟩ := clipped_surface hadv
    (if cw then (List.range l.length).reverse else List.range l.length) (by split <;> simp) h3
    (by split
        · exact (List.reverse_perm _).nodup_iff.2 List.nodup_range
        · exact List.nodup_range)
    (by split <;> simp)
  have hl : ∀ t ∈ ts, 0 ≤ turn (pointOf l t.1) (pointOf l t.2.1) (pointOf l t.2.2) := by
    intro t hm
    obtain ⟨poly, pre, post, ha⟩ := ht t hm
    obtain ⟨r1, r2, r3⟩ := hr t hm
    exact htrue r1 r3 r2 ha
  have hsum : 0 ≤ (ts.map fun t => turn (pointOf l t.1) (pointOf l t.2.1) (pointOf l t.2.2)).sum := by
    apply List.sum_nonneg
    intro x hx
    obtain ⟨t, hm, rfl⟩ := List.mem_map.1 hx
    exact hl t hm
  have hcount : ∀ q, OffLines l q → ∀ [DecidablePred (InTriangle (pointOf l) q)],
      ((ts.filter fun t => InTriangle (pointOf l) q t).length : Int) = winding (rest.map (pointOf l)) q -
        winding ((if cw then (List.range l.length).reverse else List.range l.length).map (pointOf l)) q := by
    intro q hq _
    rw [← count_of_rims (p := pointOf l) hbal hl]
    · congr!
    · intro t hm
      obtain ⟨r1, r2, r3⟩ := hr t hm
      exact ⟨hq _ (pointOf_mem r1) _ (pointOf_mem r2), hq _ (pointOf_mem r2) _ (pointOf_mem r3),
        hq _ (pointOf_mem r3) _ (pointOf_mem r1)⟩
  have harea := areas_of_rims hbal (pointOf l)
  cases cw
  · refine ⟨ts, rest.map (pointOf l), h, ?_, by simpa using hlen, ⟨hr, hl, ?_, ?_⟩⟩
    · have := hsub.map (pointOf l)
      rwa [if_neg (by simp), map_pointOf] at this
    · intro q hq _
      have := hcount q hq
      rw [if_neg (by simp), map_pointOf] at this
      have h0 : 0 ≤ winding (rest.map (pointOf l)) q - winding l q := by omega
      rw [this, abs_sub_comm, abs_of_nonneg h0]
    · rw [if_neg (by simp), map_pointOf] at harea
      rw [harea] at hsum ⊢
      rw [abs_sub_comm, abs_of_nonneg hsum]
  · refine ⟨ts, rest.reverse.map (pointOf l), h, ?_, by simpa using hlen, ⟨hr, hl, ?_, ?_⟩⟩
    · have := (List.reverse_sublist.2 hsub).map (pointOf l)
      rwa [if_pos rfl, List.reverse_reverse, map_pointOf] at this
    · intro q hq _
      have := hcount q hq
      rw [if_pos rfl, winding_map_reverse, map_pointOf] at this
      rw [winding_map_reverse, abs_of_nonneg (by omega)]
      omega
    · rw [if_pos rfl, area_map_reverse, map_pointOf] at harea
      rw [harea] at hsum ⊢
      rw [area_map_reverse, abs_of_nonneg (by linarith)]
      ring

theorem anyClockwise_ok (l : List Point) (h3 : 3 ≤ l.length) : ∃ i < l.length, Any.isClockwise l =
    .ok (decide (0 < turn (pointOf l ((i + l.length - 1) % l.length)) (pointOf l i) (pointOf l ((i + 1) % l.length)))) := by
  have hne : l ≠ [] := by intro e; simp [e] at h3
  refine ⟨Any.findCornerVertex l, anyCorner_lt l hne, ?_⟩
  unfold Any.isClockwise
  simp only [if_neg (show ¬ l.length < 3 by omega), getOrPanic_point (anyCorner_lt l hne),
    getOrPanic_point (Nat.mod_lt _ (show 0 < l.length by omega)), bind, Except.bind, pure, Except.pure]
  congr 1
  show decide (0 < _) = _
  congr 2
  unfold turn
  show (_ * _ + _ * _ + _ * _ ) - (_ * _ + _ * _ + _ * _) = _
  ring

/-- **C95**, wall tops. Apart from rounding, the triangles of any outline of three or more points cover exactly what is
between the outline and the outline of the corners that were left over. -/
theorem C95_wall_top (l : List Point) (h3 : 3 ≤ l.length) :
    ∃ ts rest, Any.triangulatePolygon l = .ok ts ∧ rest.Sublist l ∧ rest.length + ts.length = l.length ∧
      Covers l rest ts := by
  unfold Any.triangulatePolygon
  rw [if_neg (by omega)]
  exact clipped_covers (anyWall_ok l) anyWall_true h3 _

/-- **C95**, flashers and light surfaces. -/
theorem C95_polygon (l : List Point) (h3 : 3 ≤ l.length) :
    ∃ ts rest, Any.polygonToTriangles l = .ok ts ∧ rest.Sublist l ∧ rest.length + ts.length = l.length ∧
      Covers l rest ts := by
  obtain ⟨i, -, hcw⟩ := anyClockwise_ok l h3
  unfold Any.polygonToTriangles
  simp only [if_neg (show ¬ l.length < 3 by omega), hcw, bind, Except.bind]
  exact clipped_covers (anyPoly_ok l) anyPoly_true h3 _

/-- two points have nothing between them -/
theorem flat_two (a b : Point) (q : Point) : winding [a, b] q = 0 ∧ area [a, b] = 0 := by
  constructor
  · show passes q (a, b) + (passes q (b, a) + 0) = 0
    rw [passes_swap q a b]; omega
  · show (_ - _) + ((_ - _) + 0) = (0 : ℝ)
    ring

/-- **C95**: with two triangles fewer than points the triangles cover the outline: a point that the outline goes around
once is in exactly one triangle, a point that it does not go around in none, and the areas add up to the area of the
outline. -/
theorem C95_complete {l rest : List Point} {ts : List Tri} (h : Covers l rest ts) (hr : rest.length + ts.length = l.length)
    (h3 : 3 ≤ l.length) (hn : ts.length = l.length - 2) :
    (∀ q, OffLines l q → ∀ [DecidablePred (InTriangle (pointOf l) q)],
      ((ts.filter fun t => InTriangle (pointOf l) q t).length : Int) = |winding l q|) ∧
    (ts.map fun t => turn (pointOf l t.1) (pointOf l t.2.1) (pointOf l t.2.2)).sum = |area l| := by
  match rest, (show rest.length = 2 by omega) with
  | [a, b], _ =>
    refine ⟨fun q hq _ => ?_, ?_⟩
    · rw [h.count q hq, (flat_two a b q).1, sub_zero]
    · rw [h.areas, (flat_two a b (0, 0)).2, sub_zero]

/-! ### Convex outlines -/

/-- corners of the outline `l` of which any three are clockwise -/
def Cw (l : List Point) (poly : List Nat) : Prop :=
  (∀ v ∈ poly, v < l.length) ∧ poly.Nodup ∧
    ∀ a b c, [a, b, c].Sublist poly → turn (pointOf l a) (pointOf l b) (pointOf l c) < 0

theorem Cw.sub {l : List Point} {poly poly' : List Nat} (h : Cw l poly) (hs : poly'.Sublist poly) : Cw l poly' :=
  ⟨fun v hv => h.1 v (hs.subset hv), h.2.1.sublist hs, fun a b c ht => h.2.2 a b c (ht.trans hs)⟩

theorem Cw.abx {l : List Point} {a b x : Nat} {r : List Nat} (h : Cw l (a :: b :: r)) (hx : x ∈ r) :
    turn (pointOf l a) (pointOf l b) (pointOf l x) < 0 :=
  h.2.2 a b x (.cons_cons _ (.cons_cons _ (List.singleton_sublist.2 hx)))

/-- nothing else crosses the line that cuts off a corner -/
theorem same_side {a c x y : Point} (hx : turn a c x < 0) (hy : turn a c y < 0) : Any.linesIntersect a c x y = false := by
  have e : ∀ z : Point, (c.1 - a.1) * (z.2 - a.2) - (z.1 - a.1) * (c.2 - a.2) = turn a c z := by
    intro z; unfold turn; ring
  unfold Any.linesIntersect
  dsimp only
  have e1 : ∀ z : Point, Any.Outline.sub (Any.Outline.mul (Any.Outline.sub c.1 a.1) (Any.Outline.sub z.2 a.2))
      (Any.Outline.mul (Any.Outline.sub z.1 a.1) (Any.Outline.sub c.2 a.2)) = turn a c z := e
  rw [e1, e1]
  have n1 : Any.Outline.eq (turn a c x) Any.Outline.zero = false := decide_eq_false hx.ne
  have n2 : Any.Outline.eq (turn a c y) Any.Outline.zero = false := decide_eq_false hy.ne
  have n3 : Any.Outline.le Any.Outline.zero (Any.Outline.mul (turn a c x) (turn a c y)) = true :=
    decide_eq_true (mul_pos_of_neg_of_neg hx hy).le
  rw [n1, n2, n3]
  rfl

/-- the sides of a clockwise outline that do not touch the corners `a` and `c` next to the first -/
theorem far_side {l : List Point} {a b c : Nat} {r : List Nat} (h : Cw l (a :: b :: c :: r)) {i j1 j2 : Nat}
    (h1 : (a :: b :: c :: r)[i]? = some j1)
    (h2 : (a :: b :: c :: r)[if i < (a :: b :: c :: r).length - 1 then i + 1 else 0]? = some j2)
    (n1 : j1 ≠ a) (n2 : j2 ≠ a) (n3 : j1 ≠ c) (n4 : j2 ≠ c) : j1 ∈ r ∧ j2 ∈ r := by
  match i with
  | 0 => simp at h1; exact absurd h1.symm n1
  | 1 => simp at h2; exact absurd h2.symm n4
  | 2 => simp at h1; exact absurd h1.symm n3
  | i + 3 =>
    have m1 : j1 ∈ r := by
      simp only [List.getElem?_cons_succ] at h1
      exact List.mem_of_getElem? h1
    refine ⟨m1, ?_⟩
    split at h2
    · simp only [List.getElem?_cons_succ] at h2
      exact List.mem_of_getElem? h2
    · simp at h2
      exact absurd h2.symm n2

theorem no_bad_angle {l : List Point} {a b c pre post : Nat} {r : List Nat} (h : Cw l (a :: b :: c :: r))
    (hpre : pre = c ∨ pre ∈ r) (hpost : post = a ∨ post ∈ r) :
    Any.badAngle (pointOf l a) (pointOf l b) (pointOf l c) (pointOf l pre) (pointOf l post) = false := by
  have hlt : ∀ x : ℝ, Any.Outline.lt x (Any.Outline.zero : ℝ) = decide (x < 0) := fun _ => rfl
  unfold Any.badAngle
  simp only [real_dot, hlt]
  rw [Bool.or_eq_false_iff, Bool.or_eq_false_iff, Bool.and_eq_false_iff, Bool.and_eq_false_iff]
  have hac := h.sub (show (a :: c :: r).Sublist (a :: b :: c :: r) from .cons_cons _ (.cons _ (List.Sublist.refl _)))
  refine ⟨⟨decide_eq_false ?_, Or.inr (decide_eq_false ?_)⟩, Or.inr (decide_eq_false ?_)⟩
  · have := h.abx (x := c) List.mem_cons_self
    linarith
  · rcases hpre with rfl | hm
    · have : turn (pointOf l pre) (pointOf l a) (pointOf l pre) = 0 := by unfold turn; ring
      linarith
    · have h1 := hac.abx hm
      have : turn (pointOf l pre) (pointOf l a) (pointOf l c) = turn (pointOf l a) (pointOf l c) (pointOf l pre) := by
        unfold turn; ring
      linarith
  · rcases hpost with rfl | hm
    · have : turn (pointOf l post) (pointOf l c) (pointOf l post) = 0 := by unfold turn; ring
      linarith
    · have h1 := hac.abx hm
      linarith

theorem wallEdges_convex {l : List Point} {a b c : Nat} {r : List Nat} (h : Cw l (a :: b :: c :: r)) :
    ∀ k i, i + k ≤ (a :: b :: c :: r).length →
      Any.wallEdgesClear l (a :: b :: c :: r) (pointOf l a) (pointOf l c) k i = .ok true := by
  have hac := h.sub (show (a :: c :: r).Sublist (a :: b :: c :: r) from .cons_cons _ (.cons _ (List.Sublist.refl _)))
  have far := @far_side l a b c r h
  have hlt := h.1
  clear h
  generalize hp : a :: b :: c :: r = poly at *
  intro k
  induction k with
  | zero => intro i _; rfl
  | succ k ih =>
    intro i hi
    have hj : (if i < poly.length - 1 then i + 1 else 0) < poly.length := by split <;> omega
    have far' := fun (x y : Nat) => @far i x y
    unfold Any.wallEdgesClear
    generalize (if i < poly.length - 1 then i + 1 else 0) = j at hj far' ⊢
    have hi' : i < poly.length := by omega
    simp only [getOrPanic_ok hi', getOrPanic_ok hj, getOrPanic_point (hlt _ (List.getElem_mem hi')),
      getOrPanic_point (hlt _ (List.getElem_mem hj)), bind, Except.bind]
    split
    · exact ih (i + 1) (by omega)
    · rename_i hne
      split
      · exact ih (i + 1) (by omega)
      · have hself : ∀ p : Point, Any.pairEq p p = true := by
          intro p
          show (decide (p.1 = p.1) && decide (p.2 = p.2)) = true
          simp
        have m := far' poly[i] poly[j] (List.getElem?_eq_getElem hi') (List.getElem?_eq_getElem hj)
          (fun e => hne (by rw [e, hself]; rfl)) (fun e => hne (by rw [e, hself]; simp))
          (fun e => hne (by rw [e, hself]; simp)) (fun e => hne (by rw [e, hself]; simp))
        rw [same_side (hac.abx m.1) (hac.abx m.2)]
        exact ih (i + 1) (by omega)

theorem polyEdges_convex {l : List Point} {a b c : Nat} {r : List Nat} (h : Cw l (a :: b :: c :: r)) :
    ∀ k i, i + k ≤ (a :: b :: c :: r).length →
      Any.polyEdgesClear l (a :: b :: c :: r) a c (pointOf l a) (pointOf l c) k i = .ok true := by
  have hac := h.sub (show (a :: c :: r).Sublist (a :: b :: c :: r) from .cons_cons _ (.cons _ (List.Sublist.refl _)))
  have far := @far_side l a b c r h
  have hlt := h.1
  clear h
  generalize hp : a :: b :: c :: r = poly at *
  intro k
  induction k with
  | zero => intro i _; rfl
  | succ k ih =>
    intro i hi
    have hj : (if i < poly.length - 1 then i + 1 else 0) < poly.length := by split <;> omega
    have far' := fun (x y : Nat) => @far i x y
    unfold Any.polyEdgesClear
    generalize (if i < poly.length - 1 then i + 1 else 0) = j at hj far' ⊢
    have hi' : i < poly.length := by omega
    simp only [getOrPanic_ok hi', getOrPanic_ok hj, getOrPanic_point (hlt _ (List.getElem_mem hi')),
      getOrPanic_point (hlt _ (List.getElem_mem hj)), bind, Except.bind]
    split
    · exact ih (i + 1) (by omega)
    · rename_i hne
      split
      · exact ih (i + 1) (by omega)
      · have m := far' poly[i] poly[j] (List.getElem?_eq_getElem hi') (List.getElem?_eq_getElem hj)
          (fun e => hne (by rw [e]; simp)) (fun e => hne (by rw [e]; simp))
          (fun e => hne (by rw [e]; simp)) (fun e => hne (by rw [e]; simp))
        rw [same_side (hac.abx m.1) (hac.abx m.2)]
        exact ih (i + 1) (by omega)

/-- the loop finds an ear at the first corner, as long as it accepts the ears of clockwise outlines -/
theorem clip_convex {l : List Point} {adv}
    (hadv : ∀ {a b c pre post : Nat} {r : List Nat}, Cw l (a :: b :: c :: r) → pre < l.length → post < l.length →
      (pre = c ∨ pre ∈ r) → (post = a ∨ post ∈ r) → adv (a :: b :: c :: r) a b c pre post = .ok true) :
    ∀ (k : Nat) (poly : List Nat), poly.length = k + 2 → Cw l poly → ∃ ts, clipEars adv k poly = .ok ts ∧ ts.length = k := by
  intro k
  induction k with
  | zero => intro poly _ _; exact ⟨[], rfl, rfl⟩
  | succ k ih =>
    intro poly hl h
    match poly, hl with
    | a :: b :: c :: r, hl =>
      have hr : r.length = k := by simpa using hl
      have ear : findEar adv (a :: b :: c :: r) (a :: b :: c :: r).length 0 = .ok (some ((a, c, b), a :: c :: r)) := by
        have e1 : ∃ pre, (pre = c ∨ pre ∈ r) ∧ getOrPanic (a :: b :: c :: r) ((a :: b :: c :: r).length - 1) = .ok pre := by
          refine ⟨(c :: r).getLast (by simp), ?_, ?_⟩
          · exact List.mem_cons.1 (List.getLast_mem _)
          · have : (a :: b :: c :: r)[(a :: b :: c :: r).length - 1]? = some ((c :: r).getLast (by simp)) := by
              rw [← List.getLast?_eq_getElem?, List.getLast?_cons_cons, List.getLast?_cons_cons,
                List.getLast?_eq_getLast_of_ne_nil (by simp)]
            rw [getOrPanic, this]
        have e2 : ∃ post, (post = a ∨ post ∈ r) ∧
            getOrPanic (a :: b :: c :: r) (if 0 < (a :: b :: c :: r).length - 3 then 0 + 3 else 0 + 3 - (a :: b :: c :: r).length)
              = .ok post := by
          cases r with
          | nil => exact ⟨a, Or.inl rfl, rfl⟩
          | cons d r => exact ⟨d, Or.inr List.mem_cons_self, by rw [if_pos (by simp)]; rfl⟩
        obtain ⟨pre, mpre, epre⟩ := e1
        obtain ⟨post, mpost, epost⟩ := e2
        have lt1 : pre < l.length := h.1 pre (by rcases mpre with rfl | m <;> simp [*])
        have lt2 : post < l.length := h.1 post (by rcases mpost with rfl | m <;> simp [*])
        have hacc := hadv h lt1 lt2 mpre mpost
        have hlen : (a :: b :: c :: r).length = (k + 2) + 1 := by simpa using hl
        rw [hlen, findEar]
        rw [hlen] at epre epost
        simp only [hlen]
        rw [if_neg (show ¬ (k + 2 + 1 < 3) by omega), if_pos trivial, if_pos (show 0 < k + 2 + 1 - 1 by omega),
          if_pos (show 0 < k + 2 + 1 - 2 by omega), epre, epost]
        show (do let ok ← adv _ a b c pre post; _) = _
        rw [hacc]
        rfl
      obtain ⟨ts, hts, hn⟩ := ih (a :: c :: r) (by simp [hr]) (h.sub (.cons_cons _ (.cons _ (List.Sublist.refl _))))
      refine ⟨(a, c, b) :: ts, ?_, by simp [hn]⟩
      show (do match ← findEar adv (a :: b :: c :: r) (a :: b :: c :: r).length 0 with
        | none => pure []
        | some (t, rest) => do
          let ts ← clipEars adv k rest
          pure (t :: ts)) = _
      rw [ear]
      show (do let ts ← clipEars adv k (a :: c :: r); pure ((a, c, b) :: ts)) = _
      rw [hts]
      rfl

theorem wall_convex {l : List Point} (k : Nat) (poly : List Nat) (hk : poly.length = k + 2) (h : Cw l poly) :
    ∃ ts, clipEars (Any.wallAdvance l) k poly = .ok ts ∧ ts.length = k := by
  refine clip_convex ?_ k poly hk h
  intro a b c pre post r h h1 h2 hpre hpost
  unfold Any.wallAdvance
  rw [getOrPanic_point (h.1 a (by simp)), getOrPanic_point (h.1 b (by simp)), getOrPanic_point (h.1 c (by simp)),
    getOrPanic_point h1, getOrPanic_point h2]
  simp only [bind, Except.bind]
  rw [no_bad_angle h hpre hpost]
  exact wallEdges_convex h _ _ (by omega)

theorem poly_convex {l : List Point} (k : Nat) (poly : List Nat) (hk : poly.length = k + 2) (h : Cw l poly) :
    ∃ ts, clipEars (Any.polyAdvance l) k poly = .ok ts ∧ ts.length = k := by
  refine clip_convex ?_ k poly hk h
  intro a b c pre post r h h1 h2 hpre hpost
  unfold Any.polyAdvance
  rw [getOrPanic_point (h.1 a (by simp)), getOrPanic_point (h.1 b (by simp)), getOrPanic_point (h.1 c (by simp)),
    getOrPanic_point h1, getOrPanic_point h2]
  simp only [bind, Except.bind]
  rw [no_bad_angle h hpre hpost]
  exact polyEdges_convex h _ _ (by omega)

theorem area_cut (a b c : Point) (l : List Point) : area (a :: b :: c :: l) = turn a b c + area (a :: c :: l) := by
  unfold area sidesOf
  simp only [List.tail_cons, List.take_succ_cons, List.take_zero, List.cons_append, List.zip_cons_cons, List.map_cons,
    List.sum_cons]
  unfold turn
  ring

theorem convex_area : ∀ (l : List Point), ConvexLeft l → 3 ≤ l.length → 0 < area l := by
  intro l
  generalize hn : l.length = n
  induction n generalizing l with
  | zero => omega
  | succ n ih =>
    intro h h3
    match l, hn, h3 with
    | [_], hn, h3 => simp at hn; omega
    | [_, _], hn, h3 => simp at hn; omega
    | a :: b :: c :: r, hn, h3 =>
      have h1 : 0 < turn a b c := h a b c (.cons_cons _ (.cons_cons _ (.cons_cons _ (List.nil_sublist _))))
      rw [area_cut]
      cases r with
      | nil => rw [(flat_two a c (0, 0)).2]; linarith
      | cons d r =>
        have := ih (a :: c :: d :: r) (by simpa using hn)
          (fun x y z hs => h x y z (hs.trans (.cons_cons _ (.cons _ (List.Sublist.refl _))))) (by simp at hn; omega)
        linarith

theorem real_signedArea (l : List Point) : Any.signedArea l = area l := by
  have key : ∀ (es : List (Point × Point)) (z : ℝ), es.foldl (fun area (p, q) =>
      Any.Outline.add area (Any.Outline.sub (Any.Outline.mul p.1 q.2) (Any.Outline.mul q.1 p.2))) z
      = z + (es.map fun e => e.1.1 * e.2.2 - e.2.1 * e.1.2).sum := by
    intro es
    induction es with
    | nil => intro z; simp
    | cons e es ih =>
      intro z
      rw [List.foldl_cons, ih, List.map_cons, List.sum_cons, ← add_assoc]
      rfl
  have := key (sidesOf l) 0
  rw [zero_add] at this
  exact this

theorem sublist_points {l : List Point} {is : List Nat} (h : is.Sublist (List.range l.length)) :
    (is.map (pointOf l)).Sublist l := by
  have := h.map (pointOf l)
  rwa [map_pointOf] at this

/-- the corners in the order of the triangulation are clockwise -/
theorem cw_of_convex {l : List Point} :
    (ConvexLeft l → Cw l (List.range l.length).reverse) ∧ (ConvexLeft l.reverse → Cw l (List.range l.length)) := by
  constructor
  · intro h
    refine ⟨by simp, (List.reverse_perm _).nodup_iff.2 List.nodup_range, fun a b c hs => ?_⟩
    have := h _ _ _ (sublist_points (l := l) (List.reverse_sublist.1 (by simpa using hs) : [c, b, a].Sublist _))
    have e : turn (pointOf l a) (pointOf l b) (pointOf l c) = - turn (pointOf l c) (pointOf l b) (pointOf l a) := by
      unfold turn; ring
    linarith
  · intro h
    refine ⟨by simp, List.nodup_range, fun a b c hs => ?_⟩
    have := h _ _ _ (by simpa using List.reverse_sublist.2 (sublist_points hs))
    have e : turn (pointOf l a) (pointOf l b) (pointOf l c) = - turn (pointOf l c) (pointOf l b) (pointOf l a) := by
      unfold turn; ring
    linarith

theorem area_back (l : List Point) : area l.reverse = - area l := by
  have := area_map_reverse (pointOf l) (List.range l.length)
  rwa [List.map_reverse, map_pointOf] at this

/-- **C95**: the top of a wall with a strictly convex outline is complete: two triangles fewer than points. -/
theorem C95_convex_wall (l : List Point) (h3 : 3 ≤ l.length) (h : StrictlyConvex l) :
    ∃ ts, Any.triangulatePolygon l = .ok ts ∧ ts.length = l.length - 2 := by
  have hz : Any.Outline.lt Any.Outline.zero (Any.signedArea l) = decide (0 < area l) := by rw [real_signedArea]; rfl
  unfold Any.triangulatePolygon
  rw [if_neg (by omega)]
  dsimp only
  rw [hz]
  rcases h with h | h
  · rw [if_pos (decide_eq_true (convex_area l h h3))]
    exact wall_convex _ _ (by simp; omega) (cw_of_convex.1 h)
  · have := convex_area _ h (by simpa using h3)
    rw [area_back] at this
    rw [if_neg (by simp; linarith)]
    exact wall_convex _ _ (by simp; omega) (cw_of_convex.2 h)

theorem three_of_range {a b c n : Nat} (h1 : a < b) (h2 : b < c) (h3 : c < n) : [a, b, c].Sublist (List.range n) := by
  have e1 : [a].Sublist (List.range b) := List.singleton_sublist.2 (List.mem_range.2 h1)
  have e2 : ([a] ++ [b]).Sublist (List.range c) := by
    refine List.Sublist.trans (e1.append (List.Sublist.refl [b])) ?_
    rw [← List.range_succ]
    exact List.range_sublist.2 h2
  refine List.Sublist.trans (e2.append (List.Sublist.refl [c])) ?_
  rw [← List.range_succ]
  exact List.range_sublist.2 h3

/-- three corners one after the other -/
theorem turn_at {l : List Point} (h3 : 3 ≤ l.length) {i : Nat} (hi : i < l.length) :
    ∃ a b c, [a, b, c].Sublist (List.range l.length) ∧
      turn (pointOf l ((i + l.length - 1) % l.length)) (pointOf l i) (pointOf l ((i + 1) % l.length))
        = turn (pointOf l a) (pointOf l b) (pointOf l c) := by
  by_cases h0 : i = 0
  · subst h0
    refine ⟨0, 1, l.length - 1, three_of_range (by omega) (by omega) (by omega), ?_⟩
    rw [Nat.mod_eq_of_lt (show 0 + l.length - 1 < l.length by omega), Nat.mod_eq_of_lt (show 0 + 1 < l.length by omega),
      show 0 + l.length - 1 = l.length - 1 by omega]
    unfold turn
    ring
  · have e1 : (i + l.length - 1) % l.length = i - 1 := by
      rw [show i + l.length - 1 = i - 1 + l.length by omega, Nat.add_mod_right, Nat.mod_eq_of_lt (by omega)]
    by_cases hl : i + 1 = l.length
    · refine ⟨0, i - 1, i, three_of_range (by omega) (by omega) (by omega), ?_⟩
      rw [e1, hl, Nat.mod_self]
      unfold turn
      ring
    · refine ⟨i - 1, i, i + 1, three_of_range (by omega) (by omega) (by omega), ?_⟩
      rw [e1, Nat.mod_eq_of_lt (show i + 1 < l.length by omega)]

/-- **C95**: the same for flashers and light surfaces. -/
theorem C95_convex_polygon (l : List Point) (h3 : 3 ≤ l.length) (h : StrictlyConvex l) :
    ∃ ts, Any.polygonToTriangles l = .ok ts ∧ ts.length = l.length - 2 := by
  obtain ⟨i, hi, hcw⟩ := anyClockwise_ok l h3
  obtain ⟨a, b, c, hs, ht⟩ := turn_at h3 hi
  rw [ht] at hcw
  unfold Any.polygonToTriangles
  simp only [if_neg (show ¬ l.length < 3 by omega), hcw, bind, Except.bind]
  rcases h with h | h
  · rw [if_pos (decide_eq_true (h _ _ _ (sublist_points hs)))]
    exact poly_convex _ _ (by simp; omega) (cw_of_convex.1 h)
  · have := (cw_of_convex.2 h).2.2 a b c hs
    rw [if_neg (by simp; linarith)]
    exact poly_convex _ _ (by simp; omega) (cw_of_convex.2 h)

/-! ### Concrete cases -/

/-- a kite -/
noncomputable def kite : List Point := [(0, 0), (2, -1), (4, 0), (2, 5)]

theorem kite_convex : ConvexLeft kite := by
  intro a b c h
  rw [← List.mem_sublists'] at h
  simp only [kite, List.sublists'_cons, List.sublists'_nil, List.map_cons, List.map_nil, List.cons_append, List.nil_append,
    List.append_assoc, List.mem_cons, List.not_mem_nil, or_false, reduceCtorEq, List.cons.injEq, false_or, and_false, and_true] at h
  rcases h with ⟨rfl, rfl, rfl⟩ | ⟨rfl, rfl, rfl⟩ | ⟨rfl, rfl, rfl⟩ | ⟨rfl, rfl, rfl⟩ <;> (unfold turn; norm_num)

/-- a kite is convex, in both directions -/
example : StrictlyConvex kite ∧ StrictlyConvex kite.reverse ∧ 3 ≤ kite.length :=
  ⟨Or.inl kite_convex, Or.inr (by rw [List.reverse_reverse]; exact kite_convex), by simp [kite]⟩

theorem kite_off : OffLines kite (1, 1 / 4) := by
  intro a ha b hb hab
  simp only [kite, List.mem_cons, List.not_mem_nil, or_false] at ha hb
  rcases ha with rfl | rfl | rfl | rfl <;> rcases hb with rfl | rfl | rfl | rfl <;>
    first | exact absurd rfl hab | (unfold turn; norm_num)

theorem kite_wound : winding kite (1, 1 / 4) = 1 := by
  unfold winding sidesOf kite passes turn
  norm_num

/-- the two triangles of the kite: one of them has the point in it -/
example : ∃ ts, Any.triangulatePolygon kite = .ok ts ∧ ts.length = 2 ∧ ∀ [DecidablePred (InTriangle (pointOf kite) (1, 1 / 4))],
    (ts.filter fun t => InTriangle (pointOf kite) (1, 1 / 4) t).length = 1 := by
  obtain ⟨ts, h, hn⟩ := C95_convex_wall kite (by simp [kite]) (Or.inl kite_convex)
  obtain ⟨ts', rest, h', -, hl, hc⟩ := C95_wall_top kite (by simp [kite])
  rw [h] at h'
  cases h'
  refine ⟨ts, h, hn, fun {_} => ?_⟩
  have := (C95_complete hc hl (by simp [kite]) hn).1 _ kite_off
  rw [kite_wound] at this
  simpa using this

end

/-! ### What does not hold

"A simple outline without three corners on a line is complete" is false of the code. Before a side is tested against the cut
it is skipped if it is beside it; for the right of the cut the test compares the y coordinate of the second end with the x
coordinates of the cut (walls.rs:619, carried over on purpose from the original program as the comment there says, mod.rs:840), so sides that cross the cut are skipped where y is greater than x. -/

section
attribute [local instance] ieeeExact

/-- an outline with seven corners, of which a spike comes near to the first side -/
def spikedOutline : List (Int × Int) := [(10, 100), (40, 120), (20, 100), (22, 90), (18, 101), (21, 103), (1, 93)]

/-- its corners as `f32` -/
def spikedF32 : List (F32 × F32) := spikedOutline.map fun p => (f32OfFrac p.1.toNat 1, f32OfFrac p.2.toNat 1)

/-- **C95**, failure. The outline is simple and no three of its corners are on a line, but of its five triangles only one is
made, in which there are two other corners. -/
theorem C95_overlooked_side_counterexample :
    SimplePolygon spikedOutline ∧
    (∀ a ∈ spikedOutline, ∀ b ∈ spikedOutline, ∀ c ∈ spikedOutline, a ≠ b → b ≠ c → c ≠ a → Vpin.side a b c ≠ 0) ∧
    triangulatePolygon spikedF32 = .ok [(0, 2, 1)] ∧
    polygonToTriangles (spikedF32.map fun p => { x := p.1, y := p.2 }) = .ok [(0, 2, 1)] ∧
    ∀ q ∈ [(18, 101), (21, 103)], q ∈ spikedOutline ∧ 0 < Vpin.side (10, 100) (20, 100) q ∧
      0 < Vpin.side (20, 100) (40, 120) q ∧ 0 < Vpin.side (40, 120) (10, 100) q := by
  refine ⟨?_, ?_, by decide +kernel, by decide +kernel, ?_⟩
  · unfold SimplePolygon; decide +kernel
  · decide +kernel
  · decide +kernel

end

end Vpin
