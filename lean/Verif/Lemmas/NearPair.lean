import Verif.Lemmas.NearUnit
/-! Rounding when a pair of numbers is divided by its length. -/
namespace Vpin
namespace Rounding

/-- a pair of numbers divided by its length, as calculated -/
theorem unit_pair {x z : F32} {M : ℝ} (hx : AtMost M x) (hz : AtMost M z) (hM : M ≤ 2 ^ 60)
    (hs : 1 / 2 ^ 40 ≤ value x * value x + value z * value z) :
    let len := ieeeSqrt (ieeeAdd (ieeeMul x x) (ieeeMul z z))
    let s := Real.sqrt (value x * value x + value z * value z)
    0 < value len ∧ len.isFinite = true ∧
    Calc (1 / 2 ^ 21) (ieeeDiv x len) (value x / s) ∧ Calc (1 / 2 ^ 21) (ieeeDiv z len) (value z / s) := by
  intro len s
  have M0 : 0 ≤ M := (abs_nonneg _).trans hx.2
  have MM : M * M ≤ 2 ^ 60 * 2 ^ 60 := mul_le_mul hM hM M0 (by positivity)
  have xx : value x * value x ≤ 2 ^ 120 := by
    have := mul_le_mul hx.2 hx.2 (abs_nonneg _) M0
    rw [abs_mul_abs_self] at this
    norm_num at MM ⊢; linarith
  have zz : value z * value z ≤ 2 ^ 120 := by
    have := mul_le_mul hz.2 hz.2 (abs_nonneg _) M0
    rw [abs_mul_abs_self] at this
    norm_num at MM ⊢; linarith
  have x0 := mul_self_nonneg (value x)
  have z0 := mul_self_nonneg (value z)
  have p120 : (2 : ℝ) ^ 120 * 4 ≤ 2 ^ 127 := by norm_num
  have r1 := mul_rounds hx.1 hx.1 (by rw [abs_of_nonneg x0]; linarith)
  have r2 := mul_rounds hz.1 hz.1 (by rw [abs_of_nonneg z0]; linarith)
  obtain ⟨f1, e1, -⟩ := r1
  obtain ⟨f2, e2, -⟩ := r2
  rw [abs_of_nonneg x0] at e1
  rw [abs_of_nonneg z0] at e2
  have tiny : (1 : ℝ) / 2 ^ 150 ≤ 1 / 2 ^ 40 / 2 ^ 44 := by norm_num
  generalize hS : value x * value x + value z * value z = S at *
  have u1 := abs_le.1 e1
  have u2 := abs_le.1 e2
  generalize ht : (1 : ℝ) / 2 ^ 150 = t at *
  have t0 : 0 ≤ t := by rw [← ht]; positivity
  have tS : t ≤ S / 2 ^ 44 := tiny.trans (by gcongr)
  have S0 : 0 < S := lt_of_lt_of_le (by positivity) hs
  have sumb : |value (ieeeMul x x) + value (ieeeMul z z) - S| ≤ S * (11 / 10) / 2 ^ 24 := by
    rw [← hS] at *
    rw [abs_le]; constructor <;> norm_num at * <;> linarith
  have u3 := abs_le.1 sumb
  have sumle : |value (ieeeMul x x) + value (ieeeMul z z)| ≤ S * (11 / 10) := by
    rw [abs_le]; constructor <;> norm_num at * <;> linarith
  have r3 := add_rounds f1 f2 (sumle.trans (by rw [← hS]; linarith))
  obtain ⟨f3, e3, -⟩ := r3
  rw [ht] at e3
  generalize hc : ieeeAdd (ieeeMul x x) (ieeeMul z z) = c at *
  have cS : |value c - S| ≤ S * 3 / 2 ^ 24 := by
    have u4 := abs_le.1 (e3.trans (add_le_add_left (div_le_div_of_nonneg_right sumle (by positivity)) t))
    rw [abs_le]; constructor <;> norm_num at * <;> linarith
  have u5 := abs_le.1 cS
  have c0 : 0 < value c := by norm_num at *; linarith
  have c2 : value c ≤ S * 2 := by norm_num at *; linarith
  obtain ⟨f4, e4, -⟩ := sqrt_rounds f3 c0.le
  rw [ht, abs_of_nonneg (Real.sqrt_nonneg _)] at e4
  have len0 : len = ieeeSqrt c := congrArg ieeeSqrt hc
  have sS : s = Real.sqrt S := congrArg Real.sqrt hS
  clear_value s len
  subst len0
  have s0 : 0 ≤ s := by rw [sS]; exact Real.sqrt_nonneg _
  have ss : s * s = S := by rw [sS]; exact Real.mul_self_sqrt S0.le
  have cc : Real.sqrt (value c) * Real.sqrt (value c) = value c := Real.mul_self_sqrt c0.le
  have k0 := Real.sqrt_nonneg (value c)
  have slow : 1 / 2 ^ 20 ≤ s := by
    rw [sS]
    refine Real.le_sqrt_of_sq_le (le_trans (le_of_eq ?_) hs)
    norm_num
  have spos : 0 < s := lt_of_lt_of_le (by positivity) slow
  have ts : t ≤ s / 2 ^ 44 := by
    rw [← ht]
    refine le_trans ?_ (div_le_div_of_nonneg_right slow (show (0 : ℝ) ≤ 2 ^ 44 by positivity))
    norm_num
  have ks : |Real.sqrt (value c) - s| ≤ s * 3 / 2 ^ 24 := by
    have h1 : |Real.sqrt (value c) - s| * (Real.sqrt (value c) + s) ≤ (s * 3 / 2 ^ 24) * (Real.sqrt (value c) + s) := by
      have e : |Real.sqrt (value c) - s| * (Real.sqrt (value c) + s) = |value c - S| := by
        rw [← abs_of_nonneg (show 0 ≤ Real.sqrt (value c) + s by linarith), ← abs_mul]
        congr 1; linear_combination cc - ss
      rw [e]
      refine cS.trans ?_
      rw [← ss]
      have : 0 ≤ s * 3 / 2 ^ 24 * Real.sqrt (value c) := by positivity
      nlinarith
    exact le_of_mul_le_mul_right h1 (by linarith)
  have u6 := abs_le.1 ks
  have u7 := abs_le.1 e4
  have Ls : |value (ieeeSqrt c) - s| ≤ s * 5 / 2 ^ 24 := by
    rw [abs_le]; constructor <;> norm_num at * <;> linarith
  have u8 := abs_le.1 Ls
  have L0 : s * (99 / 100) ≤ value (ieeeSqrt c) := by norm_num at *; linarith
  have Lpos : 0 < value (ieeeSqrt c) := lt_of_lt_of_le (by positivity) L0
  refine ⟨Lpos, f4, ?_⟩
  have part : ∀ {w : F32}, w.isFinite = true → |value w| ≤ s → Calc (1 / 2 ^ 21) (ieeeDiv w (ieeeSqrt c)) (value w / s) := by
    intro w hw hb
    have q1 : |value w / value (ieeeSqrt c)| ≤ 11 / 10 := by
      rw [abs_div, abs_of_pos Lpos, div_le_iff₀ Lpos]; linarith
    obtain ⟨g, eg, -⟩ := div_rounds hw f4 (ne_of_gt Lpos) (q1.trans (by norm_num))
    refine ⟨g, ?_⟩
    rw [ht] at eg
    have q2 : |value w / value (ieeeSqrt c) - value w / s| ≤ 51 / 10 / 2 ^ 24 := by
      have e : value w / value (ieeeSqrt c) - value w / s = value w / s * ((s - value (ieeeSqrt c)) / value (ieeeSqrt c)) := by
        field_simp
      rw [e, abs_mul, abs_div, abs_div, abs_of_pos spos, abs_of_pos Lpos, abs_sub_comm]
      have a1 : |value w| / s ≤ 1 := by rw [div_le_one spos]; exact hb
      have a2 : |value (ieeeSqrt c) - s| / value (ieeeSqrt c) ≤ 51 / 10 / 2 ^ 24 := by
        rw [div_le_iff₀ Lpos]; norm_num at *; linarith
      calc |value w| / s * (|value (ieeeSqrt c) - s| / value (ieeeSqrt c)) ≤ 1 * (51 / 10 / 2 ^ 24) :=
            mul_le_mul a1 a2 (by positivity) (by norm_num)
        _ = _ := one_mul _
    have q3 := abs_add_le (value (ieeeDiv w (ieeeSqrt c)) - value w / value (ieeeSqrt c)) (value w / value (ieeeSqrt c) - value w / s)
    rw [sub_add_sub_cancel] at q3
    have t2 : t ≤ 1 / 2 ^ 30 := by rw [← ht]; norm_num
    have q4 := div_le_div_of_nonneg_right q1 (show (0 : ℝ) ≤ 2 ^ 24 by positivity)
    norm_num at *
    linarith
  refine ⟨part hx.1 ?_, part hz.1 ?_⟩ <;> rw [sS] <;> refine Real.abs_le_sqrt ?_ <;> rw [sq] <;> linarith

/-- a vector near one of length `r` in the direction of `(u, v)`, divided by its length -/
theorem pair_direction {X Z r u v d : ℝ} (huv : u * u + v * v = 1) (hx : |X - r * u| ≤ d) (hz : |Z - r * v| ≤ d)
    (hd : 8 * d ≤ r) (hr : 0 < r) :
    let s := Real.sqrt (X * X + Z * Z)
    r * (3 / 4) ≤ s ∧ |X / s - u| ≤ 4 * d / r ∧ |Z / s - v| ≤ 4 * d / r := by
  intro s
  have d0 : 0 ≤ d := (abs_nonneg _).trans hx
  have u1 : |u| ≤ 1 := abs_le_of_sq_le_sq (by nlinarith [mul_self_nonneg v]) (by norm_num)
  have v1 : |v| ≤ 1 := abs_le_of_sq_le_sq (by nlinarith [mul_self_nonneg u]) (by norm_num)
  have ua : |u * (X - r * u)| ≤ d := by
    rw [abs_mul]; nlinarith [abs_nonneg u, abs_nonneg (X - r * u)]
  have va : |v * (Z - r * v)| ≤ d := by
    rw [abs_mul]; nlinarith [abs_nonneg v, abs_nonneg (Z - r * v)]
  have e : X * u + Z * v = r + (u * (X - r * u) + v * (Z - r * v)) := by linear_combination r * huv
  have low : r - 2 * d ≤ s := by
    refine Real.le_sqrt_of_sq_le ?_
    have h1 : r - 2 * d ≤ X * u + Z * v := by rw [e]; linarith [(abs_le.1 ua).1, (abs_le.1 va).1]
    have h2 : (X * u + Z * v) ^ 2 ≤ X * X + Z * Z := by nlinarith [mul_self_nonneg (X * v - Z * u)]
    nlinarith
  have high : s ≤ r + 2 * d := by
    refine Real.sqrt_le_iff.2 ⟨by linarith, ?_⟩
    have e2 : X * X + Z * Z = r ^ 2 + 2 * r * (u * (X - r * u) + v * (Z - r * v)) +
        ((X - r * u) ^ 2 + (Z - r * v) ^ 2) := by linear_combination r ^ 2 * huv
    have q1 : (X - r * u) ^ 2 ≤ d ^ 2 := sq_le_sq' (abs_le.1 hx).1 (abs_le.1 hx).2
    have q2 : (Z - r * v) ^ 2 ≤ d ^ 2 := sq_le_sq' (abs_le.1 hz).1 (abs_le.1 hz).2
    have q3 : 2 * r * (u * (X - r * u) + v * (Z - r * v)) ≤ 2 * r * (2 * d) :=
      mul_le_mul_of_nonneg_left (by linarith [(abs_le.1 ua).2, (abs_le.1 va).2]) (by linarith)
    rw [e2]; nlinarith
  have s34 : r * (3 / 4) ≤ s := by linarith
  have spos : 0 < s := by nlinarith
  have part : ∀ {Y w : ℝ}, |w| ≤ 1 → |Y - r * w| ≤ d → |Y / s - w| ≤ 4 * d / r := by
    intro Y w hw hY
    have e3 : Y / s - w = ((Y - r * w) + w * (r - s)) / s := by field_simp; ring
    rw [e3, abs_div, abs_of_pos spos, div_le_div_iff₀ spos hr]
    have rs : |r - s| ≤ 2 * d := by rw [abs_le]; constructor <;> linarith
    have h3 : |(Y - r * w) + w * (r - s)| ≤ 3 * d := by
      refine (abs_add_le _ _).trans ?_
      rw [abs_mul]
      nlinarith [abs_nonneg w, abs_nonneg (r - s)]
    nlinarith
  exact ⟨s34, part u1 hx, part v1 hz⟩
end Rounding
end Vpin
