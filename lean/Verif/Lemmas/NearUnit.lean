import Verif.Lemmas.NearMatrix
/-! Rounding when a vector is divided by its length. -/
namespace Vpin
open Geometry
namespace Rounding

/-- what a rounded operation gives is a number near the exact result -/
theorem Rounds.calc {x : F32} {r c : ℝ} (h : Rounds x r) (hc : |r| ≤ c) : Calc (c / 2 ^ 24 + 1 / 2 ^ 150) x r :=
  ⟨h.1, h.2.1.trans (by
    have := div_le_div_of_nonneg_right hc (show (0 : ℝ) ≤ 2 ^ 24 by positivity)
    linarith)⟩

variable {sin cos : F32 → F32} {pow : F32 → F32 → F32} {E : ℝ} {p : V3 F32} {q : V3 ℝ}

theorem coordinate_le {a b c : ℝ} (h : a * a + b * b + c * c ≤ 2) : |a| ≤ 3 / 2 ∧ |b| ≤ 3 / 2 ∧ |c| ≤ 3 / 2 := by
  refine ⟨?_, ?_, ?_⟩ <;> refine abs_le_of_sq_le_sq ?_ (by norm_num) <;>
    nlinarith [mul_self_nonneg a, mul_self_nonneg b, mul_self_nonneg c]

theorem sum_coordinates_le {a b c : ℝ} (h : a * a + b * b + c * c ≤ 2) : |a| + |b| + |c| ≤ 5 / 2 := by
  have e1 := abs_mul_abs_self a
  have e2 := abs_mul_abs_self b
  have e3 := abs_mul_abs_self c
  have : (|a| + |b| + |c|) ^ 2 ≤ (5 / 2) ^ 2 := by
    nlinarith [mul_self_nonneg (|a| - |b|), mul_self_nonneg (|a| - |c|), mul_self_nonneg (|b| - |c|)]
  exact le_of_abs_le (abs_le_of_sq_le_sq this (by norm_num))

/-- the square of a calculated coordinate -/
theorem square_le {x r : ℝ} (h : |x - r| ≤ E) : |x * x - r * r| ≤ E * (2 * |r| + E) := by
  have e : x * x - r * r = (x - r) * (2 * r + (x - r)) := by ring
  rw [e, abs_mul]
  have h2 : |2 * r + (x - r)| ≤ 2 * |r| + E := by
    have := abs_add_le (2 * r) (x - r)
    rw [abs_mul, abs_two] at this
    linarith
  exact mul_le_mul h h2 (abs_nonneg _) ((abs_nonneg _).trans h)

/-- the calculated square of the length -/
theorem square_sum {x y z : F32} {a b c : ℝ} (hx : Calc E x a) (hy : Calc E y b) (hz : Calc E z c) (hE : E ≤ 1 / 64)
    (hq : a * a + b * b + c * c ≤ 2) :
    Calc (6 * E + 4 / 2 ^ 23) (ieeeAdd (ieeeAdd (ieeeMul x x) (ieeeMul y y)) (ieeeMul z z)) (a * a + b * b + c * c) := by
  have h0 : 0 ≤ E := (abs_nonneg _).trans hx.2
  have sx := square_le hx.2
  have sy := square_le hy.2
  have sz := square_le hz.2
  have sum := sum_coordinates_le hq
  obtain ⟨ca, cb, cc⟩ := coordinate_le hq
  have tot : |value x * value x + value y * value y + value z * value z - (a * a + b * b + c * c)| ≤ 51 / 10 * E := by
    have e : value x * value x + value y * value y + value z * value z - (a * a + b * b + c * c) =
        (value x * value x - a * a) + (value y * value y - b * b) + (value z * value z - c * c) := by ring
    rw [e]
    have := abs_add_le ((value x * value x - a * a) + (value y * value y - b * b)) (value z * value z - c * c)
    have := abs_add_le (value x * value x - a * a) (value y * value y - b * b)
    nlinarith
  have vx := mul_self_nonneg (value x)
  have vy := mul_self_nonneg (value y)
  have vz := mul_self_nonneg (value z)
  have all : value x * value x + value y * value y + value z * value z ≤ 21 / 10 := by
    have := (abs_le.1 tot).2
    linarith
  have pw : (10 : ℝ) ≤ 2 ^ 127 := by norm_num
  have small : (6 : ℝ) / 2 ^ 23 + 1 / 2 ^ 140 ≤ 1 / 1000 := by norm_num
  have tiny : (1 : ℝ) / 2 ^ 150 * 8 ≤ 1 / 100 / 2 ^ 24 := by norm_num
  have sq : ∀ {w : F32}, w.isFinite = true → value w * value w ≤ 21 / 10 →
      Calc (value w * value w / 2 ^ 24 + 1 / 2 ^ 150) (ieeeMul w w) (value w * value w) := fun hw hb =>
    (mul_rounds hw hw (by rw [abs_of_nonneg (mul_self_nonneg _)]; linarith)).calc
      (le_of_eq (abs_of_nonneg (mul_self_nonneg _)))
  obtain ⟨f1, e1⟩ := sq hx.1 (by linarith)
  obtain ⟨f2, e2⟩ := sq hy.1 (by linarith)
  obtain ⟨f3, e3⟩ := sq hz.1 (by linarith)
  generalize ieeeMul x x = X at *
  generalize ieeeMul y y = Y at *
  generalize ieeeMul z z = Z at *
  generalize value x * value x = xx at *
  generalize value y * value y = yy at *
  generalize value z * value z = zz at *
  generalize (1 : ℝ) / 2 ^ 150 = t at *
  have u1 := abs_le.1 e1
  have u2 := abs_le.1 e2
  have u3 := abs_le.1 e3
  have b1 : |value X + value Y| ≤ 22 / 10 := by rw [abs_le]; constructor <;> linarith
  have a1 := (add_rounds f1 f2 (b1.trans (by linarith))).calc b1
  generalize ieeeAdd X Y = A at *
  have u4 := abs_le.1 a1.2
  have b2 : |value A + value Z| ≤ 22 / 10 := by rw [abs_le]; constructor <;> linarith
  have a2 := (add_rounds a1.1 f3 (b2.trans (by linarith))).calc b2
  refine ⟨a2.1, ?_⟩
  have u5 := abs_le.1 a2.2
  have u6 := abs_le.1 tot
  rw [abs_le]
  constructor <;> linarith

/-- a number is positive for the code -/
theorem lt_of_value {x : F32} (hx : x.isFinite = true) (h : 0 < value x) : ieeeLt 0 x = true := by
  obtain ⟨n, i⟩ := finite_parts hx
  unfold ieeeLt
  rw [n, i, show F32.isNaN 0 = false by decide +kernel, show F32.isInf 0 = false by decide +kernel]
  simp only [Bool.not_false, Bool.and_self, Bool.and_false, Bool.true_and, Bool.false_eq_true, if_false, decide_eq_true_eq]
  rw [show F32.val 0 = 0 by decide +kernel]
  rw [value_val] at h
  have := pos_of_mul_pos_left (a := ((F32.val x : ℤ) : ℝ)) (by rw [div_eq_mul_inv] at h; exact h) (by positivity)
  exact_mod_cast this

/-- the calculated length and one over it -/
theorem length_near {s : F32} {t : ℝ} {D : ℝ} (hs : Calc D s t) (hD : D ≤ 1 / 8) (h1 : 1 / 2 ≤ t) (h2 : t ≤ 2) :
    (ieeeSqrt s).isFinite = true ∧ 1 / 2 ≤ value (ieeeSqrt s) ∧ value (ieeeSqrt s) ≤ 8 / 5 ∧
      |value (ieeeSqrt s) - Real.sqrt t| ≤ D + 1 / 2 ^ 23 := by
  have h0 : 0 ≤ D := (abs_nonneg _).trans hs.2
  have u := abs_le.1 hs.2
  obtain ⟨f, e, _⟩ := sqrt_rounds hs.1 (by linarith)
  have l1 : 3 / 5 ≤ Real.sqrt (value s) := Real.le_sqrt_of_sq_le (by linarith)
  have l2 : Real.sqrt (value s) ≤ 3 / 2 := Real.sqrt_le_iff.2 ⟨by norm_num, by linarith⟩
  have m1 : 7 / 10 ≤ Real.sqrt t := Real.le_sqrt_of_sq_le (by linarith)
  have q1 := Real.mul_self_sqrt (show 0 ≤ value s by linarith)
  have q2 := Real.mul_self_sqrt (show 0 ≤ t by linarith)
  have pr : (value s - t) = (Real.sqrt (value s) - Real.sqrt t) * (Real.sqrt (value s) + Real.sqrt t) := by
    linear_combination -q1 + q2
  have d : |Real.sqrt (value s) - Real.sqrt t| ≤ D := by
    have h3 := hs.2
    rw [pr, abs_mul, abs_of_pos (show 0 < Real.sqrt (value s) + Real.sqrt t by linarith)] at h3
    nlinarith [abs_nonneg (Real.sqrt (value s) - Real.sqrt t)]
  rw [abs_of_nonneg (show 0 ≤ Real.sqrt (value s) by linarith)] at e
  have e' : |value (ieeeSqrt s) - Real.sqrt (value s)| ≤ 1 / 2 ^ 23 := by
    refine e.trans ?_
    have : (1 : ℝ) / 2 ^ 150 ≤ 1 / 2 ^ 30 := by norm_num
    linarith
  have u2 := abs_le.1 e'
  have s23 : (1 : ℝ) / 2 ^ 23 ≤ 1 / 100 := by norm_num
  refine ⟨f, by linarith, by linarith, ?_⟩
  have := abs_add_le (value (ieeeSqrt s) - Real.sqrt (value s)) (Real.sqrt (value s) - Real.sqrt t)
  rw [sub_add_sub_cancel] at this
  linarith

/-- one coordinate divided by the length -/
theorem divided_near {x len : F32} {a l D : ℝ} (hx : Calc E x a) (hE : E ≤ 1 / 64) (hD : D ≤ 1 / 8) (fl : len.isFinite = true)
    (l1 : 1 / 2 ≤ value len) (l2 : value len ≤ 8 / 5) (hl : |value len - l| ≤ D) (m1 : 7 / 10 ≤ l)
    (ha : |a| ≤ l) (hl2 : l ≤ 3 / 2) :
    Calc (21 / 10 * E + 2 * D + 5 / 2 ^ 23) (ieeeMul x (ieeeDiv f32One len)) (a / l) := by
  have h0 : 0 ≤ E := (abs_nonneg _).trans hx.2
  have hD0 : 0 ≤ D := (abs_nonneg _).trans hl
  have pos : 0 < value len := by linarith
  have tiny : (1 : ℝ) / 2 ^ 150 ≤ 1 / 100 / 2 ^ 24 := by norm_num
  have big : (10 : ℝ) ≤ 2 ^ 127 := by norm_num
  have i2 : 1 / value len ≤ 2 := by rw [div_le_iff₀ pos]; linarith
  have i0 : 0 < 1 / value len := by positivity
  obtain ⟨f, e, _⟩ := div_rounds exact_one'.1 fl (by linarith) (by
    rw [value_one, abs_of_pos i0]; linarith)
  rw [value_one, abs_of_pos i0] at e
  have e1 : |value (ieeeDiv f32One len) - 1 / value len| ≤ 101 / 100 / 2 ^ 23 := by linarith
  generalize ieeeDiv f32One len = inv at *
  have s23 : (1 : ℝ) / 2 ^ 23 ≤ 1 / 1000 := by norm_num
  have u1 := abs_le.1 e1
  have v2 : |value inv| ≤ 201 / 100 := by rw [abs_le]; constructor <;> linarith
  have ux := abs_le.1 hx.2
  have xb : |value x| ≤ 152 / 100 := by
    have := hx.size ha
    linarith
  have pb : |value x * value inv| ≤ 31 / 10 := by
    rw [abs_mul]
    nlinarith [abs_nonneg (value x), abs_nonneg (value inv)]
  obtain ⟨fr, er⟩ := (mul_rounds hx.1 f (pb.trans (by linarith))).calc pb
  refine ⟨fr, ?_⟩
  -- the exact quotient
  have k1 : |(value x - a) * value inv| ≤ 201 / 100 * E := by
    rw [abs_mul]
    nlinarith [abs_nonneg (value x - a), abs_nonneg (value inv), hx.2]
  have k2 : |a * (value inv - 1 / value len)| ≤ 3 / 2 * (101 / 100 / 2 ^ 23) := by
    rw [abs_mul]
    exact mul_le_mul (ha.trans hl2) e1 (abs_nonneg _) (by norm_num)
  have lpos : 0 < l := by linarith
  have k3 : |a * (1 / value len - 1 / l)| ≤ 2 * D := by
    have : a * (1 / value len - 1 / l) = (a / l) * ((l - value len) * (1 / value len)) := by field_simp
    rw [this, abs_mul, abs_mul, abs_of_pos i0, abs_sub_comm]
    have h1 : |a / l| ≤ 1 := by rw [abs_div, abs_of_pos lpos, div_le_one lpos]; exact ha
    have h2 : |value len - l| * (1 / value len) ≤ D * 2 := mul_le_mul hl i2 i0.le hD0
    have h3 : 0 ≤ |value len - l| * (1 / value len) := mul_nonneg (abs_nonneg _) i0.le
    nlinarith [abs_nonneg (a / l)]
  have tot : value x * value inv - a / l = (value x - a) * value inv + a * (value inv - 1 / value len) +
      a * (1 / value len - 1 / l) := by ring
  have w1 := abs_add_le ((value x - a) * value inv + a * (value inv - 1 / value len)) (a * (1 / value len - 1 / l))
  have w2 := abs_add_le ((value x - a) * value inv) (a * (value inv - 1 / value len))
  rw [← tot] at w1
  have w3 := abs_sub_le (value (ieeeMul x inv)) (value x * value inv) (a / l)
  linarith

/-- a calculated vector of about the length one, divided by its length -/
theorem unit_near (h : Within E p q) (hE : E ≤ 1 / 64) (hq : AboutOne q) :
    letI := ieee sin cos pow
    Within (15 * E + 15 / 2 ^ 23) p.normalized (unitOf q) := by
  have h0 : 0 ≤ E := (abs_nonneg _).trans h.2.1
  obtain ⟨⟨fx, fy, fz⟩, ex, ey, ez⟩ := h
  have ss := square_sum ⟨fx, ex⟩ ⟨fy, ey⟩ ⟨fz, ez⟩ hE hq.2
  have s23 : (1 : ℝ) / 2 ^ 23 ≤ 1 / 1000 := by norm_num
  obtain ⟨fl, l1, l2, l3⟩ := length_near ss (by linarith) hq.1 hq.2
  have m1 : 7 / 10 ≤ Real.sqrt (q.x * q.x + q.y * q.y + q.z * q.z) := Real.le_sqrt_of_sq_le (by linarith [hq.1])
  have m2 : Real.sqrt (q.x * q.x + q.y * q.y + q.z * q.z) ≤ 3 / 2 :=
    Real.sqrt_le_iff.2 ⟨by norm_num, by linarith [hq.2]⟩
  have c : ∀ {x : F32} {a : ℝ}, x.isFinite = true → |value x - a| ≤ E → a * a ≤ q.x * q.x + q.y * q.y + q.z * q.z →
      Calc (15 * E + 15 / 2 ^ 23) (ieeeMul x (ieeeDiv f32One
        (ieeeSqrt (ieeeAdd (ieeeAdd (ieeeMul p.x p.x) (ieeeMul p.y p.y)) (ieeeMul p.z p.z)))))
        (a / Real.sqrt (q.x * q.x + q.y * q.y + q.z * q.z)) := by
    intro x a fx ex ha
    have := divided_near ⟨fx, ex⟩ hE (by linarith) fl l1 l2 l3 m1
      (Real.le_sqrt_of_sq_le (by rw [sq_abs, sq]; exact ha)) m2
    exact ⟨this.1, this.2.trans (by linarith)⟩
  have pos := lt_of_value fl (by linarith)
  have nx := mul_self_nonneg q.x
  have ny := mul_self_nonneg q.y
  have nz := mul_self_nonneg q.z
  have kx := c fx ex (by linarith)
  have ky := c fy ey (by linarith)
  have kz := c fz ez (by linarith)
  unfold V3.normalized
  show Within _ (if ieeeLt 0 (ieeeSqrt (ieeeAdd (ieeeAdd (ieeeMul p.x p.x) (ieeeMul p.y p.y)) (ieeeMul p.z p.z))) = true
    then _ else _) _
  rw [if_pos pos]
  exact ⟨⟨kx.1, ky.1, kz.1⟩, kx.2, ky.2, kz.2⟩

end Rounding
end Vpin
