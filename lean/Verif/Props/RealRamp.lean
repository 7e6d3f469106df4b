import Verif.Props.RealMesh
/-
C92: the sides of ramps and the point of a ramp below a point, with real numbers.
-/
namespace Vpin
open RealMesh

attribute [local instance] realNumbers

theorem dist2_pos {p q : Any.V2 ℝ} (h : p ≠ q) :
    0 < dist2 p q ∧ dist2 p q * dist2 p q = (q.x - p.x) * (q.x - p.x) + (q.y - p.y) * (q.y - p.y) := by
  have hx := mul_self_nonneg (q.x - p.x)
  have hy := mul_self_nonneg (q.y - p.y)
  have hpos : 0 < (q.x - p.x) * (q.x - p.x) + (q.y - p.y) * (q.y - p.y) := by
    by_contra hn
    apply h
    cases p; cases q
    dsimp only at *
    have e1 := mul_self_eq_zero.1 (le_antisymm (by linarith) hx)
    have e2 := mul_self_eq_zero.1 (le_antisymm (by linarith) hy)
    congr 1 <;> linarith
  exact ⟨Real.sqrt_pos.2 hpos, Real.mul_self_sqrt hpos.le⟩

theorem across_real {p q : Any.V2 ℝ} (h : p ≠ q) :
    Any.across p q = ⟨(p.y - q.y) / dist2 p q, (q.x - p.x) / dist2 p q⟩ := by
  obtain ⟨hd, -⟩ := dist2_pos h
  have e : √((p.y - q.y) * (p.y - q.y) + (q.x - p.x) * (q.x - p.x)) = dist2 p q := by
    unfold dist2
    congr 1
    ring
  unfold Any.across Any.unit2
  simp only [rn_add, rn_sub, rn_mul, rn_div, rn_sqrt, rn_isZero, e]
  exact if_neg hd.ne'

theorem sides_real (q a : Any.V2 ℝ) (w : ℝ) :
    Any.sides q a w = (⟨q.x + a.x * (w / 2), q.y + a.y * (w / 2)⟩, ⟨q.x - a.x * (w / 2), q.y - a.y * (w / 2)⟩) := by
  unfold Any.sides
  simp only [rn_add, rn_sub, rn_mul, rn_half, show w * (1 / 2) = w / 2 by ring]

/-- the distance from the line from `p` to `q` -/
theorem fromLine_across {p q : Any.V2 ℝ} (h : p ≠ q) (s : Any.V2 ℝ) :
    fromLine p q s = (Any.across p q).x * (s.x - p.x) + (Any.across p q).y * (s.y - p.y) := by
  rw [across_real h]
  unfold fromLine
  dsimp only
  ring

/-- **C92**, ends of a ramp. With real numbers, the right and the left side of a ramp at its first and last point are
straight across: at half the width on either side of the curve, and perpendicular to it. -/
theorem C92_ends {p q : Any.V2 ℝ} (h : p ≠ q) (m : Any.V2 ℝ) (hm : m = p ∨ m = q) (width : ℝ) :
    let s := Any.sides m (Any.across p q) width
    fromLine p q s.1 = width / 2 ∧ fromLine p q s.2 = -(width / 2) ∧
      ∀ e, e = s.1 ∨ e = s.2 → (e.x - m.x) * (q.x - p.x) + (e.y - m.y) * (q.y - p.y) = 0 := by
  obtain ⟨hd, hdd⟩ := dist2_pos h
  rw [sides_real]
  simp only [fromLine_across h, across_real h]
  refine ⟨?_, ?_, ?_⟩
  · rcases hm with rfl | rfl <;> field_simp <;> linear_combination (-width) * hdd
  · rcases hm with rfl | rfl <;> field_simp <;> linear_combination width * hdd
  · rintro e (rfl | rfl) <;> dsimp only <;> ring

/-- Cramer's rule -/
theorem cramer {a b c d e f : ℝ} (h : a * e - b * d ≠ 0) :
    a * ((b * f - e * c) * (1 / (a * e - b * d))) + b * ((c * d - a * f) * (1 / (a * e - b * d))) = -c ∧
      d * ((b * f - e * c) * (1 / (a * e - b * d))) + e * ((c * d - a * f) * (1 / (a * e - b * d))) = -f := by
  have hi : (a * e - b * d) * (1 / (a * e - b * d)) = 1 := by field_simp
  generalize 1 / (a * e - b * d) = k at *
  constructor
  · linear_combination (-c) * hi
  · linear_combination (-f) * hi

/-- `Any.acrossCorner` is the vector whose ends are at distance one from both lines -/
theorem acrossCorner_real {p q r : Any.V2 ℝ} (hpq : p ≠ q) (hqr : q ≠ r)
    (hdet : (q.x - p.x) * (r.y - q.y) - (q.y - p.y) * (r.x - q.x) ≠ 0)
    (hnear : ¬ (|(Any.across p q).x - (Any.across q r).x| < 1 / 10 ^ 4 ∧
      |(Any.across p q).y - (Any.across q r).y| < 1 / 10 ^ 4)) :
    let a := Any.acrossCorner p q r
    a.x * (Any.across p q).x + a.y * (Any.across p q).y = 1 ∧
      a.x * (Any.across q r).x + a.y * (Any.across q r).y = 1 := by
  obtain ⟨hd, hdd⟩ := dist2_pos hpq
  obtain ⟨he, hee⟩ := dist2_pos hqr
  dsimp only
  unfold Any.acrossCorner
  simp only [rn_add, rn_sub, rn_mul, rn_div, rn_abs, rn_isZero, rn_one, rn_small, rn_zero, Bool.and_eq_true, rn_less]
  rw [if_neg hnear]
  have hdet' : (p.y - q.y) * (q.x - r.x) - (q.x - p.x) * (r.y - q.y) ≠ 0 := by
    intro h
    apply hdet
    linarith
  rw [if_neg hdet']
  simp only [across_real hpq, across_real hqr]
  obtain ⟨c1, c2⟩ := cramer (c := (p.y - q.y) * ((p.y - q.y) / dist2 p q - p.x) + (q.x - p.x) * ((q.x - p.x) / dist2 p q - p.y))
    (f := (r.y - q.y) * ((q.y - r.y) / dist2 q r - r.x) + (q.x - r.x) * ((r.x - q.x) / dist2 q r - r.y)) hdet'
  generalize ((q.x - p.x) * ((r.y - q.y) * ((q.y - r.y) / dist2 q r - r.x) + (q.x - r.x) * ((r.x - q.x) / dist2 q r - r.y)) -
    (q.x - r.x) * ((p.y - q.y) * ((p.y - q.y) / dist2 p q - p.x) + (q.x - p.x) * ((q.x - p.x) / dist2 p q - p.y))) *
    (1 / ((p.y - q.y) * (q.x - r.x) - (q.x - p.x) * (r.y - q.y))) = ix at *
  generalize (((p.y - q.y) * ((p.y - q.y) / dist2 p q - p.x) + (q.x - p.x) * ((q.x - p.x) / dist2 p q - p.y)) * (r.y - q.y) -
    (p.y - q.y) * ((r.y - q.y) * ((q.y - r.y) / dist2 q r - r.x) + (q.x - r.x) * ((r.x - q.x) / dist2 q r - r.y))) *
    (1 / ((p.y - q.y) * (q.x - r.x) - (q.x - p.x) * (r.y - q.y))) = iy at *
  generalize dist2 p q = d at *
  generalize dist2 q r = e at *
  have hdi : d * d⁻¹ = 1 := mul_inv_cancel₀ hd.ne'
  have hei : e * e⁻¹ = 1 := mul_inv_cancel₀ he.ne'
  simp only [div_eq_mul_inv] at c1 c2 ⊢
  generalize d⁻¹ = d' at *
  generalize e⁻¹ = e' at *
  constructor
  · linear_combination (-d') * c1 + (d' * d') * (-hdd) + (d * d' + 1) * hdi
  · linear_combination e' * c2 + (e' * e') * (-hee) + (e * e' + 1) * hei

/-- the vector across a step has length one -/
theorem across_unit {p q : Any.V2 ℝ} (h : p ≠ q) :
    (Any.across p q).x * (Any.across p q).x + (Any.across p q).y * (Any.across p q).y = 1 := by
  obtain ⟨hd, hdd⟩ := dist2_pos h
  rw [across_real h]
  dsimp only
  generalize dist2 p q = d at *
  field_simp
  linear_combination -hdd

/-- both vectors across are nearly the same -/
def NearlySame (n m : Any.V2 ℝ) : Prop := |n.x - m.x| < 1 / 10 ^ 4 ∧ |n.y - m.y| < 1 / 10 ^ 4

/-- in a straight line, both vectors across are the same -/
theorem across_straight {p q r : Any.V2 ℝ} (hpq : p ≠ q) (hqr : q ≠ r)
    (hdet : (q.x - p.x) * (r.y - q.y) - (q.y - p.y) * (r.x - q.x) = 0)
    (hdot : 0 ≤ (q.x - p.x) * (r.x - q.x) + (q.y - p.y) * (r.y - q.y)) : Any.across p q = Any.across q r := by
  obtain ⟨hd, hdd⟩ := dist2_pos hpq
  obtain ⟨he, hee⟩ := dist2_pos hqr
  have hprod : dist2 p q * dist2 q r = (q.x - p.x) * (r.x - q.x) + (q.y - p.y) * (r.y - q.y) := by
    have hsq : (dist2 p q * dist2 q r) * (dist2 p q * dist2 q r) =
        ((q.x - p.x) * (r.x - q.x) + (q.y - p.y) * (r.y - q.y)) *
          ((q.x - p.x) * (r.x - q.x) + (q.y - p.y) * (r.y - q.y)) := by
      linear_combination (dist2 q r * dist2 q r) * hdd +
        ((q.x - p.x) * (q.x - p.x) + (q.y - p.y) * (q.y - p.y)) * hee +
        ((q.x - p.x) * (r.y - q.y) - (q.y - p.y) * (r.x - q.x)) * hdet
    exact (mul_self_inj (mul_pos hd he).le hdot).1 hsq
  rw [across_real hpq, across_real hqr]
  generalize dist2 p q = d at *
  generalize dist2 q r = e at *
  congr 1
  · rw [div_eq_div_iff hd.ne' he.ne']
    have h1 : d * ((p.y - q.y) * e) = d * ((q.y - r.y) * d) := by
      linear_combination (p.y - q.y) * hprod + (r.y - q.y) * hdd + (q.x - p.x) * hdet
    exact mul_left_cancel₀ hd.ne' h1
  · rw [div_eq_div_iff hd.ne' he.ne']
    have h1 : d * ((q.x - p.x) * e) = d * ((r.x - q.x) * d) := by
      linear_combination (q.x - p.x) * hprod - (r.x - q.x) * hdd + (q.y - p.y) * hdet
    exact mul_left_cancel₀ hd.ne' h1

/-- **C92**, width of a ramp. With real numbers, the right and the left side of a ramp at a point between its ends are at
half the width from the line of the step before, and from the line of the step behind (up to a hundred-millionth, and
exactly if the directions of the steps differ by more than a ten-thousandth), on either side. The curve must not turn back
on itself. -/
theorem C92_width {p q r : Any.V2 ℝ} (hpq : p ≠ q) (hqr : q ≠ r)
    (hback : ¬ ((q.x - p.x) * (r.y - q.y) - (q.y - p.y) * (r.x - q.x) = 0 ∧
      (q.x - p.x) * (r.x - q.x) + (q.y - p.y) * (r.y - q.y) < 0)) (width : ℝ) :
    let s := Any.sides q (Any.acrossCorner p q r) width
    fromLine p q s.1 = width / 2 ∧ fromLine p q s.2 = -(width / 2) ∧
      ∃ k, 1 - 1 / 10 ^ 8 ≤ k ∧ k ≤ 1 ∧ (¬ NearlySame (Any.across p q) (Any.across q r) → k = 1) ∧
        fromLine q r s.1 = k * (width / 2) ∧ fromLine q r s.2 = -(k * (width / 2)) := by
  -- what remains is the product of the vector across with both normals
  have key : ∀ a : Any.V2 ℝ, a.x * (Any.across p q).x + a.y * (Any.across p q).y = 1 →
      fromLine p q (Any.sides q a width).1 = width / 2 ∧ fromLine p q (Any.sides q a width).2 = -(width / 2) ∧
      ∀ k, a.x * (Any.across q r).x + a.y * (Any.across q r).y = k →
        fromLine q r (Any.sides q a width).1 = k * (width / 2) ∧ fromLine q r (Any.sides q a width).2 = -(k * (width / 2)) := by
    intro a ha
    have hq : (Any.across p q).x * (q.x - p.x) + (Any.across p q).y * (q.y - p.y) = 0 := by
      rw [across_real hpq]; dsimp only; ring
    rw [sides_real]
    simp only [fromLine_across hpq, fromLine_across hqr]
    refine ⟨?_, ?_, ?_⟩
    · linear_combination hq + (width / 2) * ha
    · linear_combination hq - (width / 2) * ha
    · intro k hk
      constructor
      · linear_combination (width / 2) * hk
      · linear_combination -(width / 2) * hk
  have hn := across_unit hpq
  have hm := across_unit hqr
  by_cases hnear : NearlySame (Any.across p q) (Any.across q r)
  · have ea : Any.acrossCorner p q r = Any.across p q := by
      unfold Any.acrossCorner
      simp only [rn_sub, rn_abs, rn_small, Bool.and_eq_true, rn_less]
      exact if_pos hnear
    dsimp only
    rw [ea]
    obtain ⟨h1, h2, h3⟩ := key _ hn
    obtain ⟨hx, hy⟩ := hnear
    refine ⟨h1, h2, _, ?_, ?_, fun h => absurd ⟨hx, hy⟩ h, h3 _ rfl⟩
    · have ax := abs_lt.1 hx
      have ay := abs_lt.1 hy
      have sx : ((Any.across p q).x - (Any.across q r).x) * ((Any.across p q).x - (Any.across q r).x) ≤
          1 / 10 ^ 4 * (1 / 10 ^ 4) := by nlinarith
      have sy : ((Any.across p q).y - (Any.across q r).y) * ((Any.across p q).y - (Any.across q r).y) ≤
          1 / 10 ^ 4 * (1 / 10 ^ 4) := by nlinarith
      nlinarith
    · have sx := mul_self_nonneg ((Any.across p q).x - (Any.across q r).x)
      have sy := mul_self_nonneg ((Any.across p q).y - (Any.across q r).y)
      nlinarith
  · have hdet : (q.x - p.x) * (r.y - q.y) - (q.y - p.y) * (r.x - q.x) ≠ 0 := by
      intro h0
      apply hnear
      rw [across_straight hpq hqr h0 (not_lt.1 fun h => hback ⟨h0, h⟩)]
      constructor <;> simp
    obtain ⟨h1, h2⟩ := acrossCorner_real hpq hqr hdet hnear
    obtain ⟨g1, g2, g3⟩ := key _ h1
    exact ⟨g1, g2, 1, by norm_num, le_refl _, fun _ => rfl, g3 1 h2⟩

/-- **C92**, failure: where the curve turns back on itself, the code takes the place of the point for the vector across,
so that the sides are off by half the width times the distance of the point from the corner of the table. -/
theorem C92_turn_back_counterexample {p q : Any.V2 ℝ} (hpq : p ≠ q) {k : ℝ} (hk : 0 < k) (width : ℝ) :
    Any.sides q (Any.acrossCorner p q ⟨q.x - k * (q.x - p.x), q.y - k * (q.y - p.y)⟩) width =
      (⟨q.x + q.x * (width / 2), q.y + q.y * (width / 2)⟩, ⟨q.x - q.x * (width / 2), q.y - q.y * (width / 2)⟩) := by
  obtain ⟨hd, hdd⟩ := dist2_pos hpq
  have hr : q ≠ ⟨q.x - k * (q.x - p.x), q.y - k * (q.y - p.y)⟩ := by
    intro h
    have hx := congrArg Any.V2.x h
    have hy := congrArg Any.V2.y h
    dsimp only at hx hy
    have ex : q.x - p.x = 0 := (mul_eq_zero.1 (by linarith : k * (q.x - p.x) = 0)).resolve_left hk.ne'
    have ey : q.y - p.y = 0 := (mul_eq_zero.1 (by linarith : k * (q.y - p.y) = 0)).resolve_left hk.ne'
    rw [ex, ey] at hdd
    have := mul_pos hd hd
    linarith
  have hdist : dist2 q ⟨q.x - k * (q.x - p.x), q.y - k * (q.y - p.y)⟩ = k * dist2 p q := by
    unfold dist2
    dsimp only
    rw [show (q.x - k * (q.x - p.x) - q.x) * (q.x - k * (q.x - p.x) - q.x) +
      (q.y - k * (q.y - p.y) - q.y) * (q.y - k * (q.y - p.y) - q.y) =
      k * k * ((q.x - p.x) * (q.x - p.x) + (q.y - p.y) * (q.y - p.y)) by ring, Real.sqrt_mul (mul_self_nonneg k),
      Real.sqrt_mul_self hk.le]
  have hopp : Any.across q ⟨q.x - k * (q.x - p.x), q.y - k * (q.y - p.y)⟩ =
      ⟨-(Any.across p q).x, -(Any.across p q).y⟩ := by
    rw [across_real hr, across_real hpq, hdist]
    dsimp only
    congr 1 <;> field_simp <;> ring
  have hn := across_unit hpq
  have ea : Any.acrossCorner p q ⟨q.x - k * (q.x - p.x), q.y - k * (q.y - p.y)⟩ = q := by
    unfold Any.acrossCorner
    simp only [rn_add, rn_sub, rn_mul, rn_div, rn_abs, rn_isZero, rn_one, rn_small, rn_zero, Bool.and_eq_true, rn_less]
    rw [if_neg, if_pos]
    · simp
    · ring
    · rw [hopp]
      dsimp only
      rintro ⟨hx, hy⟩
      have ax := abs_lt.1 hx
      have ay := abs_lt.1 hy
      nlinarith
  rw [ea, sides_real]

/-- **C92**, the point below. With real numbers, the point found for a segment is on its line, the way to it is
perpendicular to the line, and its distance is the smallest of all points of the line. -/
theorem C92_foot {p q : Any.V2 ℝ} (h : 1 / 10 ^ 12 ≤ dist2 p q) (x y : ℝ) :
    ∃ t : ℝ, Any.foot p q x y = some (dist2 (onLine p q t) ⟨x, y⟩, onLine p q t) ∧
      (x - (onLine p q t).x) * (q.x - p.x) + (y - (onLine p q t).y) * (q.y - p.y) = 0 ∧
      ∀ t', dist2 (onLine p q t) ⟨x, y⟩ ≤ dist2 (onLine p q t') ⟨x, y⟩ := by
  have hd : 0 < dist2 p q := lt_of_lt_of_le (by positivity) h
  have hdd : dist2 p q * dist2 p q = (q.x - p.x) * (q.x - p.x) + (q.y - p.y) * (q.y - p.y) :=
    Real.mul_self_sqrt (add_nonneg (mul_self_nonneg _) (mul_self_nonneg _))
  have hD : 0 < (q.x - p.x) * (q.x - p.x) + (q.y - p.y) * (q.y - p.y) := hdd ▸ mul_pos hd hd
  have e : √((p.y - q.y) * (p.y - q.y) + (q.x - p.x) * (q.x - p.x)) = dist2 p q := by
    unfold dist2
    congr 1
    ring
  obtain ⟨t, ht⟩ : ∃ t, t * ((q.x - p.x) * (q.x - p.x) + (q.y - p.y) * (q.y - p.y)) =
      (x - p.x) * (q.x - p.x) + (y - p.y) * (q.y - p.y) := ⟨_ / _, div_mul_cancel₀ _ hD.ne'⟩
  have hperp : (x - (onLine p q t).x) * (q.x - p.x) + (y - (onLine p q t).y) * (q.y - p.y) = 0 := by
    unfold onLine
    dsimp only
    linear_combination -ht
  refine ⟨t, ?_, hperp, ?_⟩
  · unfold Any.foot
    simp only [rn_add, rn_sub, rn_mul, rn_div, rn_abs, rn_isZero, rn_one, rn_tiny, rn_zero, rn_less, rn_neg, rn_sqrt, e]
    rw [if_neg (not_lt.2 h), if_neg (by nlinarith)]
    have hinv : ((p.y - q.y) * (p.y - q.y) - (q.x - p.x) * -(q.x - p.x)) *
        (1 / ((p.y - q.y) * (p.y - q.y) - (q.x - p.x) * -(q.x - p.x))) = 1 := by
      rw [mul_one_div_cancel]
      nlinarith
    generalize 1 / ((p.y - q.y) * (p.y - q.y) - (q.x - p.x) * -(q.x - p.x)) = s at *
    congr 2
    · -- the distance
      rw [div_eq_iff hd.ne']
      have hsq : |(p.y - q.y) * x + (q.x - p.x) * y + -((p.y - q.y) * p.x + (q.x - p.x) * p.y)| =
          √(((p.y - q.y) * x + (q.x - p.x) * y + -((p.y - q.y) * p.x + (q.x - p.x) * p.y)) *
            ((p.y - q.y) * x + (q.x - p.x) * y + -((p.y - q.y) * p.x + (q.x - p.x) * p.y))) :=
        (Real.sqrt_mul_self_eq_abs _).symm
      rw [hsq]
      unfold dist2
      rw [← Real.sqrt_mul (add_nonneg (mul_self_nonneg _) (mul_self_nonneg _))]
      congr 1
      unfold onLine
      dsimp only
      linear_combination -(t * ((q.x - p.x) * (q.x - p.x) + (q.y - p.y) * (q.y - p.y)) -
        ((x - p.x) * (q.x - p.x) + (y - p.y) * (q.y - p.y))) * ht
    · unfold onLine
      congr 1
      · linear_combination (p.x + t * (q.x - p.x)) * hinv - (q.x - p.x) * s * ht
      · linear_combination (p.y + t * (q.y - p.y)) * hinv - (q.y - p.y) * s * ht
  · intro t'
    unfold dist2
    apply Real.sqrt_le_sqrt
    unfold onLine at hperp ⊢
    dsimp only at hperp ⊢
    have h1 := mul_nonneg (mul_self_nonneg (t - t')) hD.le
    have h2 : (x - (p.x + t' * (q.x - p.x))) * (x - (p.x + t' * (q.x - p.x))) +
        (y - (p.y + t' * (q.y - p.y))) * (y - (p.y + t' * (q.y - p.y))) =
      (x - (p.x + t * (q.x - p.x))) * (x - (p.x + t * (q.x - p.x))) +
        (y - (p.y + t * (q.y - p.y))) * (y - (p.y + t * (q.y - p.y))) +
        (t - t') * (t - t') * ((q.x - p.x) * (q.x - p.x) + (q.y - p.y) * (q.y - p.y)) := by
      linear_combination 2 * (t - t') * hperp
    linarith

end Vpin
