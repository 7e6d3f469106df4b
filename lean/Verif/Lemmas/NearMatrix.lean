import Verif.Lemmas.NearPoint
/-! The error of placing a point with a product of matrices in single precision. -/
namespace Vpin
namespace Rounding
open Geometry

/-- a calculated number, at most `e` away from the exact one -/
def Calc (e : ℝ) (x : F32) (r : ℝ) : Prop := x.isFinite = true ∧ |value x - r| ≤ e

theorem Calc.size {e l : ℝ} {x : F32} {r : ℝ} (h : Calc e x r) (hr : |r| ≤ l) : |value x| ≤ l + e := by
  have := abs_add_le (value x - r) r
  rw [sub_add_cancel] at this
  linarith [h.2]

theorem Calc.same {e : ℝ} {x y : F32} {r : ℝ} (h : Calc e x r) (hy : Exact y (value x)) : Calc e y r :=
  ⟨hy.1, by rw [hy.2]; exact h.2⟩

theorem Calc.of_exact {x : F32} {r e : ℝ} (h : Exact x r) (he : 0 ≤ e) : Calc e x r :=
  ⟨h.1, by rw [h.2, sub_self, abs_zero]; exact he⟩

theorem mul_nothing {x y : F32} (hx : Exact x 0) (hy : y.isFinite = true) : Exact (ieeeMul x y) 0 := by
  have h := mul_rounds hx.1 hy (by rw [hx.2, zero_mul]; simp)
  rw [hx.2, zero_mul] at h
  exact h.get exact_zero'

theorem nothing_mul {x y : F32} (hx : x.isFinite = true) (hy : Exact y 0) : Exact (ieeeMul x y) 0 := by
  have h := mul_rounds hx hy.1 (by rw [hy.2, mul_zero]; simp)
  rw [hy.2, mul_zero] at h
  exact h.get exact_zero'

theorem mul_unit {x y : F32} {r : ℝ} (hx : Exact x r) (hb : |r| ≤ 2 ^ 120) (hy : Exact y 1) : Exact (ieeeMul x y) r := by
  have h := mul_rounds hx.1 hy.1 (by rw [hx.2, hy.2, mul_one]; exact hb.trans (by norm_num))
  rw [hx.2, hy.2, mul_one] at h
  exact h.get hx

theorem unit_mul {x y : F32} {r : ℝ} (hx : Exact x 1) (hy : Exact y r) (hb : |r| ≤ 2 ^ 120) : Exact (ieeeMul x y) r := by
  have h := mul_rounds hx.1 hy.1 (by rw [hx.2, hy.2, one_mul]; exact hb.trans (by norm_num))
  rw [hx.2, hy.2, one_mul] at h
  exact h.get hy

theorem add_nothing {x y : F32} {r : ℝ} (hx : Exact x r) (hb : |r| ≤ 2 ^ 120) (hy : Exact y 0) : Exact (ieeeAdd x y) r := by
  have h := add_rounds hx.1 hy.1 (by rw [hx.2, hy.2, add_zero]; exact hb.trans (by norm_num))
  rw [hx.2, hy.2, add_zero] at h
  exact h.get hx

theorem nothing_add {x y : F32} {r : ℝ} (hx : Exact x 0) (hy : Exact y r) (hb : |r| ≤ 2 ^ 120) : Exact (ieeeAdd x y) r := by
  have h := add_rounds hx.1 hy.1 (by rw [hx.2, hy.2, zero_add]; exact hb.trans (by norm_num))
  rw [hx.2, hy.2, zero_add] at h
  exact h.get hy

/-- an entry of a turning matrix times a number -/
theorem entry_mul {c x : F32} {g a e δ l : ℝ} (hc : Calc δ c g) (hg : |g| ≤ 1) (hx : Calc (e * l) x a) (ha : |a| ≤ l)
    (hl : 1 ≤ l) (hL : l ≤ 2 ^ 60) (he : e ≤ 1 / 64) (h0 : 0 ≤ e) (hδ : δ ≤ 1 / 64) (hδ0 : 0 ≤ δ) :
    Calc (|g| * (e * l) + δ * (e * l) + δ * l + 53 / 100 / 2 ^ 23 * l) (ieeeMul c x) (g * a) ∧
      |value (ieeeMul c x)| ≤ 105 / 100 * l := by
  have s1 : |value c| ≤ 1 + 1 / 64 := (hc.size hg).trans (by linarith)
  have s1' : |value c| ≤ |g| + δ := hc.size le_rfl
  have s2 : |value x| ≤ (1 + 1 / 64) * l := by
    have := hx.size ha
    nlinarith
  have s3 : |value c * value x| ≤ 104 / 100 * l := by
    rw [abs_mul]
    calc |value c| * |value x| ≤ (1 + 1 / 64) * ((1 + 1 / 64) * l) := mul_le_mul s1 s2 (abs_nonneg _) (by norm_num)
      _ ≤ 104 / 100 * l := by linarith
  have hr := mul_rounds hc.1 hx.1 (s3.trans (by
    calc (104 : ℝ) / 100 * l ≤ 104 / 100 * 2 ^ 60 := by linarith
      _ ≤ 2 ^ 127 := by norm_num))
  have h1 := hr.2.1
  have hround : |value (ieeeMul c x) - value c * value x| ≤ 53 / 100 / 2 ^ 23 * l := by
    have : |value c * value x| / 2 ^ 24 ≤ 104 / 100 * l / 2 ^ 24 := by gcongr
    have : (1 : ℝ) / 2 ^ 150 ≤ l / 2 ^ 100 := by
      calc (1 : ℝ) / 2 ^ 150 ≤ 1 / 2 ^ 100 := by norm_num
        _ ≤ l / 2 ^ 100 := by gcongr
    have : (104 : ℝ) / 100 * l / 2 ^ 24 + l / 2 ^ 100 ≤ 53 / 100 / 2 ^ 23 * l := by
      have : (104 : ℝ) / 100 / 2 ^ 24 + 1 / 2 ^ 100 ≤ 53 / 100 / 2 ^ 23 := by norm_num
      nlinarith
    linarith
  refine ⟨⟨hr.1, ?_⟩, ?_⟩
  · have e1 : value c * value x - g * a = value c * (value x - a) + (value c - g) * a := by ring
    have h2 : |value c * value x - g * a| ≤ (|g| + δ) * (e * l) + δ * l := by
      rw [e1]
      refine (abs_add_le _ _).trans ?_
      rw [abs_mul, abs_mul]
      exact add_le_add (mul_le_mul s1' hx.2 (abs_nonneg _) (by positivity))
        (mul_le_mul hc.2 ha (abs_nonneg _) hδ0)
    have h3 := abs_add_le (value (ieeeMul c x) - value c * value x) (value c * value x - g * a)
    rw [sub_add_sub_cancel] at h3
    have : (|g| + δ) * (e * l) = |g| * (e * l) + δ * (e * l) := by ring
    linarith
  · have h3 := abs_add_le (value (ieeeMul c x) - value c * value x) (value c * value x)
    rw [sub_add_cancel] at h3
    have : (53 : ℝ) / 100 / 2 ^ 23 * l ≤ 1 / 100 * l := by
      have : (53 : ℝ) / 100 / 2 ^ 23 ≤ 1 / 100 := by norm_num
      nlinarith
    linarith

/-- the two products of a turn, added -/
theorem pair_cell {c s x y p r : F32} {g h a b e δ l : ℝ} (hc : Calc δ c g) (hs : Calc δ s h) (hg : |g| ≤ 1)
    (hh : |h| ≤ 1) (hgh : |g| + |h| ≤ 3 / 2) (hx : Calc (e * l) x a) (hy : Calc (e * l) y b) (ha : |a| ≤ l)
    (hb : |b| ≤ l) (hl : 1 ≤ l) (hL : l ≤ 2 ^ 60) (he : e ≤ 1 / 64) (h0 : 0 ≤ e) (hδ : δ ≤ 1 / 64) (hδ0 : 0 ≤ δ)
    (hp : Exact p (value (ieeeMul c x))) (hr : Exact r (value (ieeeMul s y))) :
    Calc ((3 / 2 * e + 17 / 8 * δ + 3 / 2 ^ 23) * l) (ieeeAdd p r) (g * a + h * b) ∧
      |value (ieeeAdd p r)| ≤ 2 ^ 100 := by
  obtain ⟨⟨f1, e1⟩, b1⟩ := entry_mul hc hg hx ha hl hL he h0 hδ hδ0
  obtain ⟨⟨f2, e2⟩, b2⟩ := entry_mul hs hh hy hb hl hL he h0 hδ hδ0
  rw [← hp.2] at e1 b1
  rw [← hr.2] at e2 b2
  have s3 : |value p + value r| ≤ 21 / 10 * l := (abs_add_le _ _).trans (by linarith)
  have hq := add_rounds hp.1 hr.1 (s3.trans (by
    calc (21 : ℝ) / 10 * l ≤ 21 / 10 * 2 ^ 60 := by linarith
      _ ≤ 2 ^ 127 := by norm_num))
  have h1 := hq.2.1
  have hround : |value (ieeeAdd p r) - (value p + value r)| ≤ 106 / 100 / 2 ^ 23 * l := by
    have : |value p + value r| / 2 ^ 24 ≤ 21 / 10 * l / 2 ^ 24 := by gcongr
    have : (1 : ℝ) / 2 ^ 150 ≤ l / 2 ^ 100 := by
      calc (1 : ℝ) / 2 ^ 150 ≤ 1 / 2 ^ 100 := by norm_num
        _ ≤ l / 2 ^ 100 := by gcongr
    have : (21 : ℝ) / 10 * l / 2 ^ 24 + l / 2 ^ 100 ≤ 106 / 100 / 2 ^ 23 * l := by
      have : (21 : ℝ) / 10 / 2 ^ 24 + 1 / 2 ^ 100 ≤ 106 / 100 / 2 ^ 23 := by norm_num
      nlinarith
    linarith
  refine ⟨⟨hq.1, ?_⟩, ?_⟩
  · have h2 : |value p + value r - (g * a + h * b)| ≤ |value p - g * a| + |value r - h * b| := by
      rw [show value p + value r - (g * a + h * b) = (value p - g * a) + (value r - h * b) by ring]
      exact abs_add_le _ _
    have h3 := abs_add_le (value (ieeeAdd p r) - (value p + value r)) (value p + value r - (g * a + h * b))
    rw [sub_add_sub_cancel] at h3
    have t1 : |g| * (e * l) + |h| * (e * l) ≤ 3 / 2 * (e * l) := by
      rw [← add_mul]
      exact mul_le_mul_of_nonneg_right hgh (by positivity)
    have t2 : δ * (e * l) ≤ 1 / 64 * (δ * l) := by
      have : e * (δ * l) ≤ 1 / 64 * (δ * l) := mul_le_mul_of_nonneg_right he (by positivity)
      linarith
    have t3 : (3 / 2 * e + 17 / 8 * δ + 3 / 2 ^ 23) * l = 3 / 2 * (e * l) + 17 / 8 * (δ * l) + 3 / 2 ^ 23 * l := by ring
    have t4 : (106 : ℝ) / 100 / 2 ^ 23 * l + 2 * (53 / 100 / 2 ^ 23 * l) ≤ 3 / 2 ^ 23 * l := by
      have : (106 : ℝ) / 100 / 2 ^ 23 + 2 * (53 / 100 / 2 ^ 23) ≤ 3 / 2 ^ 23 := by norm_num
      nlinarith
    have t5 : 0 ≤ δ * l := by positivity
    linarith
  · have h3 := abs_add_le (value (ieeeAdd p r) - (value p + value r)) (value p + value r)
    rw [sub_add_cancel] at h3
    have : (106 : ℝ) / 100 / 2 ^ 23 * l ≤ 1 * l := by
      have : (106 : ℝ) / 100 / 2 ^ 23 ≤ 1 := by norm_num
      nlinarith
    calc |value (ieeeAdd p r)| ≤ 4 * l := by linarith
      _ ≤ 4 * 2 ^ 60 := by linarith
      _ ≤ 2 ^ 100 := by norm_num

/-- A row of a matrix that places points, calculated with an error of `e` times its length. -/
structure RowCalc (e l : ℝ) (w : ℝ) (row : Row4 F32) (a : V3 ℝ) : Prop where
  x : Calc (e * l) row.c0 a.x
  y : Calc (e * l) row.c1 a.y
  z : Calc (e * l) row.c2 a.z
  w : Exact row.c3 w
  len : a.x * a.x + a.y * a.y + a.z * a.z ≤ l * l

theorem RowCalc.bounds {e l w : ℝ} {row : Row4 F32} {a : V3 ℝ} (h : RowCalc e l w row a) (hl : 0 ≤ l) :
    |a.x| ≤ l ∧ |a.y| ≤ l ∧ |a.z| ≤ l := by
  have := h.len
  have sx := mul_self_nonneg a.x
  have sy := mul_self_nonneg a.y
  have sz := mul_self_nonneg a.z
  refine ⟨?_, ?_, ?_⟩ <;> exact abs_le_of_sq_le_sq (by nlinarith) hl

theorem sum_abs {g h : ℝ} (h1 : g * g + h * h = 1) : |g| + |h| ≤ 3 / 2 := by
  have : (|g| + |h|) * (|g| + |h|) ≤ 2 := by
    have e1 := abs_mul_abs_self g
    have e2 := abs_mul_abs_self h
    nlinarith [mul_self_nonneg (|g| - |h|)]
  nlinarith [abs_nonneg g, abs_nonneg h]

variable {sin cos : F32 → F32} {pow : F32 → F32 → F32}
variable {e l w : ℝ} {row : Row4 F32} {a : V3 ℝ}

/-- what is known of the sine and the cosine of an angle -/
theorem turn_entries (T : CloseTrig sin cos) {t : F32} {n : ℕ} (hn : 1 ≤ n) (hn' : n ≤ 400) (ht : AtMost (360 * n) t) :
    Calc ((4 * n + 1) / 2 ^ 23) (sin (ieeeMul t fRadsPerDeg)) (Real.sin (value t * (Real.pi / 180))) ∧
    Calc ((4 * n + 1) / 2 ^ 23) (cos (ieeeMul t fRadsPerDeg)) (Real.cos (value t * (Real.pi / 180))) := by
  obtain ⟨hf, he⟩ := radians_near hn ht (by omega)
  obtain ⟨s1, s2⟩ := T.sin _ hf
  obtain ⟨c1, c2⟩ := T.cos _ hf
  have a1 := Real.abs_sin_sub_sin_le (value (ieeeMul t fRadsPerDeg)) (value t * (Real.pi / 180))
  have a2 := Real.abs_cos_sub_cos_le (value (ieeeMul t fRadsPerDeg)) (value t * (Real.pi / 180))
  have e1 : (4 * (n : ℝ) + 1) / 2 ^ 23 = 4 * n / 2 ^ 23 + 1 / 2 ^ 23 := by ring
  refine ⟨⟨s1, ?_⟩, ⟨c1, ?_⟩⟩
  · have := abs_add_le (value (sin (ieeeMul t fRadsPerDeg)) - Real.sin (value (ieeeMul t fRadsPerDeg)))
      (Real.sin (value (ieeeMul t fRadsPerDeg)) - Real.sin (value t * (Real.pi / 180)))
    rw [sub_add_sub_cancel] at this
    linarith
  · have := abs_add_le (value (cos (ieeeMul t fRadsPerDeg)) - Real.cos (value (ieeeMul t fRadsPerDeg)))
      (Real.cos (value (ieeeMul t fRadsPerDeg)) - Real.cos (value t * (Real.pi / 180)))
    rw [sub_add_sub_cancel] at this
    linarith

theorem Calc.neg {x : F32} {r : ℝ} (h : Calc e x r) : Calc e x.neg (-r) :=
  ⟨by rw [neg_finite]; exact h.1, by rw [value_neg, ← neg_sub', abs_neg]; exact h.2⟩

/-- how the error grows with one more turn -/
noncomputable def turnError (n : ℕ) (e : ℝ) : ℝ := 3 / 2 * e + (9 * n + 6) / 2 ^ 23

theorem turn_error_le {n : ℕ} (hn : 1 ≤ n) : 3 / 2 * e + 17 / 8 * ((4 * n + 1) / 2 ^ 23) + 3 / 2 ^ 23 ≤ turnError n e := by
  have hnR : (1 : ℝ) ≤ n := by exact_mod_cast hn
  unfold turnError
  have : 17 / 8 * ((4 * (n : ℝ) + 1) / 2 ^ 23) + 3 / 2 ^ 23 ≤ (9 * n + 6) / 2 ^ 23 := by
    rw [← mul_div_assoc, ← add_div]
    exact div_le_div_of_nonneg_right (by linarith) (by positivity)
  linarith

theorem le_turn_error {n : ℕ} (h0 : 0 ≤ e) : e ≤ turnError n e := by
  unfold turnError
  have : 0 ≤ (9 * (n : ℝ) + 6) / 2 ^ 23 := by positivity
  linarith

section
variable {n : ℕ}

/-- the facts every turn needs -/
structure TurnReady (sin cos : F32 → F32) (e l w : ℝ) (n : ℕ) (t : F32) : Prop where
  trig : CloseTrig sin cos
  one : 1 ≤ n
  many : n ≤ 400
  angle : AtMost (360 * n) t
  len : 1 ≤ l
  top : l ≤ 2 ^ 60
  small : e ≤ 1 / 64
  pos : 0 ≤ e
  fourth : |w| ≤ 2 ^ 60

theorem Calc.grow' (h : Calc (e * l) x r) (hl : 1 ≤ l) (h0 : 0 ≤ e) : Calc (turnError n e * l) x r :=
  ⟨h.1, h.2.trans (mul_le_mul_of_nonneg_right (le_turn_error h0) (by linarith))⟩

theorem delta_small (h : n ≤ 400) : (4 * (n : ℝ) + 1) / 2 ^ 23 ≤ 1 / 64 := by
  have : (n : ℝ) ≤ 400 := by exact_mod_cast h
  rw [div_le_div_iff₀ (by positivity) (by positivity)]
  norm_num
  linarith

theorem TurnReady.two {t : F32} (R : TurnReady sin cos e l w n t) {c s x y p r : F32} {g h u v : ℝ}
    (hc : Calc ((4 * n + 1) / 2 ^ 23) c g) (hs : Calc ((4 * n + 1) / 2 ^ 23) s h) (hgh : g * g + h * h = 1)
    (hx : Calc (e * l) x u) (hy : Calc (e * l) y v) (hu : |u| ≤ l) (hv : |v| ≤ l)
    (hp : Exact p (value (ieeeMul c x))) (hr : Exact r (value (ieeeMul s y))) :
    Calc (turnError n e * l) (ieeeAdd p r) (g * u + h * v) ∧ |value (ieeeAdd p r)| ≤ 2 ^ 100 := by
  have hg : |g| ≤ 1 := by rw [abs_le]; constructor <;> nlinarith [mul_self_nonneg h]
  have hh : |h| ≤ 1 := by rw [abs_le]; constructor <;> nlinarith [mul_self_nonneg g]
  obtain ⟨k1, k2⟩ := pair_cell hc hs hg hh (sum_abs hgh) hx hy hu hv R.len R.top R.small R.pos (delta_small R.many)
    (by positivity) hp hr
  exact ⟨⟨k1.1, k1.2.trans (mul_le_mul_of_nonneg_right (turn_error_le R.one) (by linarith [R.len]))⟩, k2⟩

/-- the product of an entry and a number is far from overflow -/
theorem TurnReady.product {t : F32} (R : TurnReady sin cos e l w n t) {c x : F32} {g u : ℝ}
    (hc : Calc ((4 * n + 1) / 2 ^ 23) c g) (hg : |g| ≤ 1) (hx : Calc (e * l) x u) (hu : |u| ≤ l) :
    Exact (ieeeMul c x) (value (ieeeMul c x)) ∧ |value (ieeeMul c x)| ≤ 2 ^ 120 := by
  obtain ⟨k1, k2⟩ := entry_mul hc hg hx hu R.len R.top R.small R.pos (delta_small R.many) (by positivity)
  refine ⟨⟨k1.1, rfl⟩, k2.trans ?_⟩
  calc (105 : ℝ) / 100 * l ≤ 105 / 100 * 2 ^ 60 := by linarith [R.top]
    _ ≤ 2 ^ 120 := by norm_num

theorem TurnReady.entry {t : F32} (R : TurnReady sin cos e l w n t) {x : F32} {u : ℝ} (hx : Calc (e * l) x u)
    (hu : |u| ≤ l) : |value x| ≤ 2 ^ 120 := by
  have := hx.size hu
  have h1 : e * l ≤ 1 / 64 * l := mul_le_mul_of_nonneg_right R.small (by linarith [R.len])
  calc |value x| ≤ 2 * l := by linarith [R.len]
    _ ≤ 2 * 2 ^ 60 := by linarith [R.top]
    _ ≤ 2 ^ 120 := by norm_num

/-! ### A row times a turn -/

theorem mem_unit (t : ℝ) : Real.cos t * Real.cos t + Real.sin t * Real.sin t = 1 := by
  have := Real.cos_sq_add_sin_sq t
  nlinarith

theorem RowCalc.turnZ {t : F32} (h : RowCalc e l w row a) (R : TurnReady sin cos e l w n t) :
    letI := ieee sin cos pow
    RowCalc (turnError n e) l w (mulRow row (Matrix3D.rotateZ (Ops.radians t)))
      (Geometry.turnZ (Real.cos (value t * (Real.pi / 180))) (Real.sin (value t * (Real.pi / 180))) a) := by
  obtain ⟨hs, hc⟩ := turn_entries R.trig R.one R.many R.angle
  have unit := mem_unit (value t * (Real.pi / 180))
  obtain ⟨bx, by', bz⟩ := h.bounds (by linarith [R.len])
  have cg : |Real.cos (value t * (Real.pi / 180))| ≤ 1 := Real.abs_cos_le_one _
  have sg : |Real.sin (value t * (Real.pi / 180))| ≤ 1 := Real.abs_sin_le_one _
  have fw : |w| ≤ 2 ^ 120 := R.fourth.trans (by norm_num)
  have z2 := mul_nothing exact_zero' h.z.1
  have z3 := mul_nothing exact_zero' h.w.1
  have fin : ∀ {x : F32} {r E : ℝ}, Calc E x r → |value x| ≤ 2 ^ 100 →
      Calc E (ieeeAdd (ieeeAdd x (ieeeMul 0 row.c2)) (ieeeMul 0 row.c3)) r := fun hx hb =>
    hx.same (add_nothing (add_nothing ⟨hx.1, rfl⟩ (hb.trans (by norm_num)) z2) (hb.trans (by norm_num)) z3)
  refine ⟨?_, ?_, ?_, ?_, ?_⟩
  · obtain ⟨p1, _⟩ := R.product hc cg h.x bx
    obtain ⟨p2, _⟩ := R.product hs.neg (by rw [abs_neg]; exact sg) h.y by'
    obtain ⟨k1, k2⟩ := R.two hc hs.neg (by linarith) h.x h.y bx by' p1 p2
    have := fin k1 k2
    rw [neg_mul, ← sub_eq_add_neg] at this
    exact this
  · obtain ⟨p1, _⟩ := R.product hs sg h.x bx
    obtain ⟨p2, _⟩ := R.product hc cg h.y by'
    obtain ⟨k1, k2⟩ := R.two hs hc (by linarith) h.x h.y bx by' p1 p2
    exact fin k1 k2
  · have z0 := mul_nothing exact_zero' h.x.1
    have z1 := mul_nothing exact_zero' h.y.1
    have hb := R.entry h.z bz
    have := add_nothing (nothing_add (nothing_add z0 z1 (by simp)) (unit_mul exact_one' ⟨h.z.1, rfl⟩ hb) hb) hb z3
    exact (h.z.grow' R.len R.pos).same this
  · have z0 := mul_nothing exact_zero' h.x.1
    have z1 := mul_nothing exact_zero' h.y.1
    exact nothing_add (nothing_add (nothing_add z0 z1 (by simp)) z2 (by simp)) (unit_mul exact_one' h.w fw) fw
  · have := h.len
    unfold Geometry.turnZ
    dsimp only
    generalize Real.cos (value t * (Real.pi / 180)) = g at *
    generalize Real.sin (value t * (Real.pi / 180)) = q at *
    have e1 : (g * a.x - q * a.y) * (g * a.x - q * a.y) + (q * a.x + g * a.y) * (q * a.x + g * a.y) + a.z * a.z =
        (g * g + q * q) * (a.x * a.x + a.y * a.y) + a.z * a.z := by ring
    rw [e1, unit]
    linarith

theorem RowCalc.turnX {t : F32} (h : RowCalc e l w row a) (R : TurnReady sin cos e l w n t) :
    letI := ieee sin cos pow
    RowCalc (turnError n e) l w (mulRow row (Matrix3D.rotateX (Ops.radians t)))
      (Geometry.turnX (Real.cos (value t * (Real.pi / 180))) (Real.sin (value t * (Real.pi / 180))) a) := by
  obtain ⟨hs, hc⟩ := turn_entries R.trig R.one R.many R.angle
  have unit := mem_unit (value t * (Real.pi / 180))
  obtain ⟨bx, by', bz⟩ := h.bounds (by linarith [R.len])
  have cg : |Real.cos (value t * (Real.pi / 180))| ≤ 1 := Real.abs_cos_le_one _
  have sg : |Real.sin (value t * (Real.pi / 180))| ≤ 1 := Real.abs_sin_le_one _
  have fw : |w| ≤ 2 ^ 120 := R.fourth.trans (by norm_num)
  have z0 := mul_nothing exact_zero' h.x.1
  have z1 := mul_nothing exact_zero' h.y.1
  have z2 := mul_nothing exact_zero' h.z.1
  have z3 := mul_nothing exact_zero' h.w.1
  refine ⟨?_, ?_, ?_, ?_, ?_⟩
  · have hb := R.entry h.x bx
    have := add_nothing (add_nothing (add_nothing (unit_mul exact_one' ⟨h.x.1, rfl⟩ hb) hb z1) hb z2) hb z3
    exact (h.x.grow' R.len R.pos).same this
  · obtain ⟨p1, b1⟩ := R.product hc cg h.y by'
    obtain ⟨p2, _⟩ := R.product hs.neg (by rw [abs_neg]; exact sg) h.z bz
    obtain ⟨k1, k2⟩ := R.two hc hs.neg (by linarith) h.y h.z by' bz (nothing_add z0 p1 b1) p2
    have := k1.same (add_nothing ⟨k1.1, rfl⟩ (k2.trans (by norm_num)) z3)
    rw [neg_mul, ← sub_eq_add_neg] at this
    exact this
  · obtain ⟨p1, b1⟩ := R.product hs sg h.y by'
    obtain ⟨p2, _⟩ := R.product hc cg h.z bz
    obtain ⟨k1, k2⟩ := R.two hs hc (by linarith) h.y h.z by' bz (nothing_add z0 p1 b1) p2
    exact k1.same (add_nothing ⟨k1.1, rfl⟩ (k2.trans (by norm_num)) z3)
  · exact nothing_add (nothing_add (nothing_add z0 z1 (by simp)) z2 (by simp)) (unit_mul exact_one' h.w fw) fw
  · have := h.len
    unfold Geometry.turnX
    dsimp only
    generalize Real.cos (value t * (Real.pi / 180)) = g at *
    generalize Real.sin (value t * (Real.pi / 180)) = q at *
    have e1 : a.x * a.x + (g * a.y - q * a.z) * (g * a.y - q * a.z) + (q * a.y + g * a.z) * (q * a.y + g * a.z) =
        (g * g + q * q) * (a.y * a.y + a.z * a.z) + a.x * a.x := by ring
    rw [e1, unit]
    linarith

theorem RowCalc.turnY {t : F32} (h : RowCalc e l w row a) (R : TurnReady sin cos e l w n t) :
    letI := ieee sin cos pow
    RowCalc (turnError n e) l w (mulRow row (Matrix3D.rotateY (Ops.radians t)))
      (Geometry.turnY (Real.cos (value t * (Real.pi / 180))) (Real.sin (value t * (Real.pi / 180))) a) := by
  obtain ⟨hs, hc⟩ := turn_entries R.trig R.one R.many R.angle
  have unit := mem_unit (value t * (Real.pi / 180))
  obtain ⟨bx, by', bz⟩ := h.bounds (by linarith [R.len])
  have cg : |Real.cos (value t * (Real.pi / 180))| ≤ 1 := Real.abs_cos_le_one _
  have sg : |Real.sin (value t * (Real.pi / 180))| ≤ 1 := Real.abs_sin_le_one _
  have fw : |w| ≤ 2 ^ 120 := R.fourth.trans (by norm_num)
  have z0 := mul_nothing exact_zero' h.x.1
  have z1 := mul_nothing exact_zero' h.y.1
  have z2 := mul_nothing exact_zero' h.z.1
  have z3 := mul_nothing exact_zero' h.w.1
  refine ⟨?_, ?_, ?_, ?_, ?_⟩
  · obtain ⟨p1, b1⟩ := R.product hc cg h.x bx
    obtain ⟨p2, _⟩ := R.product hs sg h.z bz
    obtain ⟨k1, k2⟩ := R.two hc hs (by linarith) h.x h.z bx bz (add_nothing p1 b1 z1) p2
    exact k1.same (add_nothing ⟨k1.1, rfl⟩ (k2.trans (by norm_num)) z3)
  · have hb := R.entry h.y by'
    have := add_nothing (add_nothing (nothing_add z0 (unit_mul exact_one' ⟨h.y.1, rfl⟩ hb) hb) hb z2) hb z3
    exact (h.y.grow' R.len R.pos).same this
  · obtain ⟨p1, b1⟩ := R.product hs.neg (by rw [abs_neg]; exact sg) h.x bx
    obtain ⟨p2, _⟩ := R.product hc cg h.z bz
    obtain ⟨k1, k2⟩ := R.two hs.neg hc (by linarith) h.x h.z bx bz (add_nothing p1 b1 z1) p2
    have := k1.same (add_nothing ⟨k1.1, rfl⟩ (k2.trans (by norm_num)) z3)
    rw [neg_mul, neg_add_eq_sub] at this
    exact this
  · exact nothing_add (nothing_add (nothing_add z0 z1 (by simp)) z2 (by simp)) (unit_mul exact_one' h.w fw) fw
  · have := h.len
    unfold Geometry.turnY
    dsimp only
    generalize Real.cos (value t * (Real.pi / 180)) = g at *
    generalize Real.sin (value t * (Real.pi / 180)) = q at *
    have e1 : (g * a.x + q * a.z) * (g * a.x + q * a.z) + a.y * a.y + (g * a.z - q * a.x) * (g * a.z - q * a.x) =
        (g * g + q * q) * (a.x * a.x + a.z * a.z) + a.y * a.y := by ring
    rw [e1, unit]
    linarith

end
end Rounding
end Vpin
