import Verif.Lemmas.Rounding
/-! Several operations in single precision: the error in terms of the sizes of the numbers and the number of roundings. -/
namespace Vpin
namespace Rounding

/-! ### Numbers that are met exactly -/

/-- a bit pattern of exactly this number -/
def Exact (x : F32) (r : ℝ) : Prop := x.isFinite = true ∧ value x = r

theorem Rounds.get {x y : F32} {r : ℝ} (h : Rounds x r) (hy : Exact y r) : Exact x r := by
  refine ⟨h.1, ?_⟩
  have := h.2.2 y hy.1
  rw [hy.2, sub_self, abs_zero] at this
  have := abs_nonpos_iff.1 this
  linarith

theorem exact_zero' : Exact 0 0 := ⟨by decide +kernel, value_zero⟩

theorem value_one : value f32One = 1 := by
  rw [value_val, show F32.val f32One = 2 ^ 149 by decide +kernel]
  rw [Int.cast_pow, Int.cast_ofNat, div_self (by positivity)]

theorem exact_one' : Exact f32One 1 := ⟨by decide +kernel, value_one⟩

theorem value_two : value 0x40000000 = 2 := by
  rw [value_val, show F32.val 0x40000000 = 2 * 2 ^ 149 by decide +kernel]
  rw [Int.cast_mul, Int.cast_pow, Int.cast_ofNat]
  field_simp

/-! ### The relation -/

/-- how `k` roundings can enlarge a number -/
noncomputable def grow (k : ℕ) : ℝ := (1 + 1 / 2 ^ 23) ^ k

theorem grow_zero : grow 0 = 1 := by unfold grow; simp
theorem grow_succ (k : ℕ) : grow (k + 1) = grow k * (1 + 1 / 2 ^ 23) := by unfold grow; rw [pow_succ]
theorem grow_add (j k : ℕ) : grow (j + k) = grow j * grow k := by unfold grow; rw [pow_add]
theorem one_le_grow (k : ℕ) : 1 ≤ grow k := one_le_pow₀ (by norm_num)
theorem grow_mono {j k : ℕ} (h : j ≤ k) : grow j ≤ grow k := pow_le_pow_right₀ (by norm_num) h

theorem grow_ge (k : ℕ) : (k : ℝ) / 2 ^ 23 ≤ grow k - 1 := by
  have := one_add_mul_le_pow (a := (1 : ℝ) / 2 ^ 23) (by norm_num) k
  unfold grow
  linarith [mul_one_div (k : ℝ) (2 ^ 23)]

theorem grow_sq {k : ℕ} (hk : k ≤ 2 ^ 23) : grow k ≤ 1 + (k : ℝ) / 2 ^ 23 + ((k : ℝ) / 2 ^ 23) ^ 2 := by
  induction k with
  | zero => rw [grow_zero]; simp
  | succ k ih =>
    have ih := ih (by omega)
    rw [grow_succ]
    have hk' : (k : ℝ) ≤ 2 ^ 23 := by exact_mod_cast (by omega : k ≤ 2 ^ 23)
    have hk0 : (0 : ℝ) ≤ k := by positivity
    calc grow k * (1 + 1 / 2 ^ 23) ≤ (1 + (k : ℝ) / 2 ^ 23 + ((k : ℝ) / 2 ^ 23) ^ 2) * (1 + 1 / 2 ^ 23) :=
          mul_le_mul_of_nonneg_right ih (by norm_num)
      _ ≤ _ := by
        push_cast
        have h1 : (k : ℝ) ^ 2 / 2 ^ 23 ≤ k := by
          rw [div_le_iff₀ (by positivity), sq]
          exact mul_le_mul_of_nonneg_left hk' hk0
        have e : (1 + ((k : ℝ) + 1) / 2 ^ 23 + (((k : ℝ) + 1) / 2 ^ 23) ^ 2) -
            (1 + (k : ℝ) / 2 ^ 23 + ((k : ℝ) / 2 ^ 23) ^ 2) * (1 + 1 / 2 ^ 23) =
            (k + 1 - (k : ℝ) ^ 2 / 2 ^ 23) / (2 ^ 23) ^ 2 := by
          field_simp; ring
        have h2 : 0 ≤ (k + 1 - (k : ℝ) ^ 2 / 2 ^ 23) / (2 ^ 23) ^ 2 := div_nonneg (by linarith) (by positivity)
        linarith

/-- few roundings: each adds one unit, and all together less than one more -/
theorem grow_le {k : ℕ} (hk : k ≤ 2000) : grow k - 1 ≤ ((k : ℝ) + 1) / 2 ^ 23 := by
  have h := grow_sq (k := k) (by omega)
  have hk' : (k : ℝ) ≤ 2000 := by exact_mod_cast hk
  have hk0 : (0 : ℝ) ≤ k := by positivity
  have : ((k : ℝ) / 2 ^ 23) ^ 2 ≤ 1 / 2 ^ 23 := by
    rw [div_pow, div_le_div_iff₀ (by positivity) (by positivity)]
    nlinarith
  have e : ((k : ℝ) + 1) / 2 ^ 23 = (k : ℝ) / 2 ^ 23 + 1 / 2 ^ 23 := by ring
  linarith

theorem grow_le_two {k : ℕ} (hk : k ≤ 2000) : grow k ≤ 2 := by
  have := grow_le hk
  have hk' : (k : ℝ) ≤ 2000 := by exact_mod_cast hk
  have : ((k : ℝ) + 1) / 2 ^ 23 ≤ 1 := by rw [div_le_one (by positivity)]; norm_num; linarith
  linarith

/-- A calculated number and the exact one: the exact one is at most `m`, and the error that of `k` roundings of numbers
of that size. -/
structure Near (k : ℕ) (m : ℝ) (x : F32) (r : ℝ) : Prop where
  finite : x.isFinite = true
  size : m = 0 ∨ 1 ≤ m
  bound : |r| ≤ m
  error : |value x - r| ≤ m * (grow k - 1)

variable {k j : ℕ} {m l : ℝ} {x y : F32} {r s : ℝ}

theorem Near.nonneg (h : Near k m x r) : 0 ≤ m := by rcases h.size with h | h <;> linarith

theorem Near.value_le (h : Near k m x r) : |value x| ≤ m * grow k := by
  have h1 := h.error
  have h2 := h.bound
  have : |value x| ≤ |value x - r| + |r| := by
    have := abs_add_le (value x - r) r
    rwa [sub_add_cancel] at this
  linarith

theorem Near.mono (h : Near k m x r) (hk : k ≤ j) : Near j m x r :=
  ⟨h.finite, h.size, h.bound, h.error.trans (mul_le_mul_of_nonneg_left (by linarith [grow_mono hk]) h.nonneg)⟩

theorem Near.exact (h : Exact x r) (hb : |r| ≤ m) (hm : 1 ≤ m) : Near 0 m x r :=
  ⟨h.1, Or.inr hm, hb, by rw [h.2, sub_self, abs_zero, grow_zero, sub_self, mul_zero]⟩

theorem Near.of_atMost (h : AtMost m x) (hm : 1 ≤ m) : Near 0 m x (value x) := Near.exact ⟨h.1, rfl⟩ h.2 hm

theorem Near.zero : Near 0 0 0 0 :=
  ⟨by decide +kernel, Or.inl rfl, by simp, by rw [value_zero]; simp⟩

theorem Near.one : Near 0 1 f32One 1 := Near.exact exact_one' (by simp) le_rfl

theorem Near.neg (h : Near k m x r) : Near k m x.neg (-r) :=
  ⟨by rw [neg_finite]; exact h.finite, h.size, by rw [abs_neg]; exact h.bound,
    by rw [value_neg, ← neg_sub', abs_neg]; exact h.error⟩

/-- a bound of 0 means exactly 0 -/
theorem Near.is_zero (h : Near k 0 x r) : Exact x 0 ∧ r = 0 := by
  have h1 : r = 0 := abs_nonpos_iff.1 h.bound
  have h2 := h.error
  rw [h1, zero_mul, sub_zero] at h2
  exact ⟨⟨h.finite, abs_nonpos_iff.1 h2⟩, h1⟩

/-- one more rounding -/
theorem round_near {z : F32} {t q : ℝ} (hz : Rounds z q) (hm : m = 0 ∨ 1 ≤ m) (hb : |t| ≤ m)
    (hq : |q - t| ≤ m * (grow k - 1)) : Near (k + 1) m z t := by
  refine ⟨hz.1, hm, hb, ?_⟩
  rcases hm with rfl | hm
  · have h1 : t = 0 := abs_nonpos_iff.1 hb
    rw [h1, zero_mul, sub_zero] at hq
    have h2 : q = 0 := abs_nonpos_iff.1 hq
    rw [h2] at hz
    rw [(hz.get exact_zero').2, h1]; simp
  · have hg := one_le_grow k
    have h1 : |q| ≤ m * grow k := by
      have := abs_add_le (q - t) t
      rw [sub_add_cancel] at this
      linarith
    have h2 : |value z - t| ≤ |value z - q| + |q - t| := by
      have := abs_add_le (value z - q) (q - t)
      rwa [sub_add_sub_cancel] at this
    have h3 := hz.2.1
    have h4 : (1 : ℝ) / 2 ^ 150 ≤ m * grow k / 2 ^ 24 := by
      have : (1 : ℝ) ≤ m * grow k := by nlinarith
      calc (1 : ℝ) / 2 ^ 150 ≤ 1 / 2 ^ 24 := by norm_num
        _ ≤ m * grow k / 2 ^ 24 := by gcongr
    have h5 : |q| / 2 ^ 24 ≤ m * grow k / 2 ^ 24 := by gcongr
    rw [grow_succ]
    have e : m * (grow k * (1 + 1 / 2 ^ 23) - 1) = m * (grow k - 1) + (m * grow k / 2 ^ 24 + m * grow k / 2 ^ 24) := by
      ring
    linarith

theorem small_sum (hk : k ≤ 2000) (hm : m ≤ 2 ^ 100) (h0 : 0 ≤ m) : m * grow k ≤ 2 ^ 127 := by
  have := grow_le_two hk
  calc m * grow k ≤ 2 ^ 100 * 2 := mul_le_mul hm this (by linarith [one_le_grow k]) (by positivity)
    _ ≤ 2 ^ 127 := by norm_num

theorem size_add (h1 : m = 0 ∨ 1 ≤ m) (h2 : l = 0 ∨ 1 ≤ l) : m + l = 0 ∨ 1 ≤ m + l := by
  rcases h1 with rfl | h1 <;> rcases h2 with rfl | h2
  · left; simp
  · right; linarith
  · right; linarith
  · right; linarith

theorem size_mul (h1 : m = 0 ∨ 1 ≤ m) (h2 : l = 0 ∨ 1 ≤ l) : m * l = 0 ∨ 1 ≤ m * l := by
  rcases h1 with rfl | h1
  · left; simp
  · rcases h2 with rfl | h2
    · left; simp
    · right; nlinarith

theorem Near.add (hx : Near k m x r) (hy : Near k l y s) (hk : k ≤ 2000) (hm : m + l ≤ 2 ^ 100) :
    Near (k + 1) (m + l) (ieeeAdd x y) (r + s) := by
  have e1 := hx.error
  have e2 := hy.error
  have b1 := hx.value_le
  have b2 := hy.value_le
  refine round_near (add_rounds hx.finite hy.finite ?_) (size_add hx.size hy.size) ?_ ?_
  · refine (abs_add_le _ _).trans ?_
    have := small_sum hk hm (by linarith [hx.nonneg, hy.nonneg])
    linarith
  · exact (abs_add_le _ _).trans (add_le_add hx.bound hy.bound)
  · rw [show value x + value y - (r + s) = (value x - r) + (value y - s) by ring]
    refine (abs_add_le _ _).trans ?_
    linarith

theorem Near.sub (hx : Near k m x r) (hy : Near k l y s) (hk : k ≤ 2000) (hm : m + l ≤ 2 ^ 100) :
    Near (k + 1) (m + l) (ieeeAdd x y.neg) (r - s) := by
  rw [sub_eq_add_neg]
  exact hx.add hy.neg hk hm

/-- adding nothing is exact -/
theorem Near.add_zero (hx : Near k m x r) (hy : Near j 0 y s) (hk : k ≤ 2000) (hm : m ≤ 2 ^ 100) :
    Near k m (ieeeAdd x y) (r + s) := by
  obtain ⟨⟨f, v⟩, z⟩ := hy.is_zero
  have h := add_rounds hx.finite f
    (by rw [v, _root_.add_zero]; exact hx.value_le.trans (small_sum hk hm hx.nonneg))
  rw [v, _root_.add_zero] at h
  have e := h.get ⟨hx.finite, rfl⟩
  rw [z, _root_.add_zero]
  exact ⟨e.1, hx.size, hx.bound, by rw [e.2]; exact hx.error⟩

theorem Near.zero_add (hx : Near j 0 x r) (hy : Near k m y s) (hk : k ≤ 2000) (hm : m ≤ 2 ^ 100) :
    Near k m (ieeeAdd x y) (r + s) := by
  obtain ⟨⟨f, v⟩, z⟩ := hx.is_zero
  have h := add_rounds f hy.finite
    (by rw [v, _root_.zero_add]; exact hy.value_le.trans (small_sum hk hm hy.nonneg))
  rw [v, _root_.zero_add] at h
  have e := h.get ⟨hy.finite, rfl⟩
  rw [z, _root_.zero_add]
  exact ⟨e.1, hy.size, hy.bound, by rw [e.2]; exact hy.error⟩

theorem Near.mul (hx : Near k m x r) (hy : Near j l y s) (hk : k + j ≤ 2000) (hm : m * l ≤ 2 ^ 100) :
    Near (k + j + 1) (m * l) (ieeeMul x y) (r * s) := by
  have e1 := hx.error
  have e2 := hy.error
  have b1 := hx.value_le
  have b2 := hy.bound
  have n1 := hx.nonneg
  have n2 := hy.nonneg
  have g1 := one_le_grow k
  have g2 := one_le_grow j
  have hq : |value x * value y - r * s| ≤ m * l * (grow (k + j) - 1) := by
    rw [show value x * value y - r * s = value x * (value y - s) + (value x - r) * s by ring, grow_add]
    refine (abs_add_le _ _).trans ?_
    rw [abs_mul, abs_mul]
    have h1 : |value x| * |value y - s| ≤ (m * grow k) * (l * (grow j - 1)) :=
      mul_le_mul b1 e2 (abs_nonneg _) (by positivity)
    have h2 : |value x - r| * |s| ≤ (m * (grow k - 1)) * l :=
      mul_le_mul e1 b2 (abs_nonneg _) (mul_nonneg n1 (by linarith))
    refine (add_le_add h1 h2).trans (le_of_eq ?_)
    ring
  refine round_near (mul_rounds hx.finite hy.finite ?_) (size_mul hx.size hy.size) ?_ hq
  · rw [abs_mul]
    have h1 : |value x| * |value y| ≤ (m * grow k) * (l * grow j) :=
      mul_le_mul b1 hy.value_le (abs_nonneg _) (by positivity)
    refine h1.trans ?_
    have := small_sum hk hm (mul_nonneg n1 n2)
    rw [grow_add] at this
    linarith [show (m * grow k) * (l * grow j) = m * l * (grow k * grow j) by ring]
  · rw [abs_mul]
    exact mul_le_mul hx.bound b2 (abs_nonneg _) n1

/-- a product with a bound of zero is exactly zero -/
theorem Near.zero_mul (hx : Near j 0 x r) (hy : Near k m y s) : Near 0 0 (ieeeMul x y) (r * s) := by
  obtain ⟨⟨f, v⟩, z⟩ := hx.is_zero
  have h := mul_rounds f hy.finite (by rw [v, MulZeroClass.zero_mul]; simp)
  rw [v, MulZeroClass.zero_mul] at h
  have e := h.get exact_zero'
  rw [z, MulZeroClass.zero_mul]
  exact ⟨e.1, Or.inl rfl, by simp, by rw [e.2]; simp⟩

theorem Near.mul_zero (hx : Near k m x r) (hy : Near j 0 y s) : Near 0 0 (ieeeMul x y) (r * s) := by
  obtain ⟨⟨f, v⟩, z⟩ := hy.is_zero
  have h := mul_rounds hx.finite f (by rw [v, MulZeroClass.mul_zero]; simp)
  rw [v, MulZeroClass.mul_zero] at h
  have e := h.get exact_zero'
  rw [z, MulZeroClass.mul_zero]
  exact ⟨e.1, Or.inl rfl, by simp, by rw [e.2]; simp⟩

/-- a product with one is exact -/
theorem Near.mul_one (hx : Near k m x r) (hy : Exact y 1) (hk : k ≤ 2000) (hm : m ≤ 2 ^ 100) :
    Near k m (ieeeMul x y) (r * 1) := by
  have h := mul_rounds hx.finite hy.1
    (by rw [hy.2, _root_.mul_one]; exact hx.value_le.trans (small_sum hk hm hx.nonneg))
  rw [hy.2, _root_.mul_one] at h
  have e := h.get ⟨hx.finite, rfl⟩
  rw [_root_.mul_one]
  exact ⟨e.1, hx.size, hx.bound, by rw [e.2]; exact hx.error⟩

theorem Near.one_mul (hx : Exact x 1) (hy : Near k m y s) (hk : k ≤ 2000) (hm : m ≤ 2 ^ 100) :
    Near k m (ieeeMul x y) (1 * s) := by
  have h := mul_rounds hx.1 hy.finite
    (by rw [hx.2, _root_.one_mul]; exact hy.value_le.trans (small_sum hk hm hy.nonneg))
  rw [hx.2, _root_.one_mul] at h
  have e := h.get ⟨hy.finite, rfl⟩
  rw [_root_.one_mul]
  exact ⟨e.1, hy.size, hy.bound, by rw [e.2]; exact hy.error⟩

theorem Near.le (h : Near k m x r) (hk : k ≤ 2000) : |value x - r| ≤ m * (((k : ℝ) + 1) / 2 ^ 23) :=
  h.error.trans (mul_le_mul_of_nonneg_left (grow_le hk) h.nonneg)

/-- a larger bound -/
theorem Near.widen (h : Near k m x r) (hml : m ≤ l) (hl : l = 0 ∨ 1 ≤ l) : Near k l x r :=
  ⟨h.finite, hl, h.bound.trans hml,
    h.error.trans (mul_le_mul_of_nonneg_right hml (by linarith [one_le_grow k]))⟩

/-! ### Angles -/

theorem value_degree : value fRadsPerDeg = 9370165 / 2 ^ 29 := by
  rw [value_val, show F32.val fRadsPerDeg = 9370165 * 2 ^ 120 by decide +kernel]
  rw [Int.cast_mul, Int.cast_pow, Int.cast_ofNat, Int.cast_ofNat,
    show (2 : ℝ) ^ 149 = 2 ^ 29 * 2 ^ 120 by rw [← pow_add]]
  field_simp

/-- an angle in radians: two roundings, of the factor and of the product -/
theorem radians_near {x : F32} {n : ℕ} (hn : 1 ≤ n) (h : AtMost (360 * n) x) (hbig : n ≤ 2 ^ 60) :
    (ieeeMul x fRadsPerDeg).isFinite = true ∧
      |value (ieeeMul x fRadsPerDeg) - value x * (Real.pi / 180)| ≤ (4 * n : ℝ) / 2 ^ 23 := by
  have hnR : (1 : ℝ) ≤ n := by exact_mod_cast hn
  have hnB : (n : ℝ) ≤ 2 ^ 60 := by exact_mod_cast hbig
  have hd : (fRadsPerDeg).isFinite = true := by decide +kernel
  have hprod : |value x * value fRadsPerDeg| ≤ 360 * n * (9370165 / 2 ^ 29) := by
    rw [abs_mul, value_degree, abs_of_pos (by norm_num : (0 : ℝ) < 9370165 / 2 ^ 29)]
    exact mul_le_mul_of_nonneg_right h.2 (by norm_num)
  have hr := mul_rounds h.1 hd (hprod.trans (by
    calc (360 : ℝ) * n * (9370165 / 2 ^ 29) ≤ 360 * 2 ^ 60 * (9370165 / 2 ^ 29) := by gcongr
      _ ≤ 2 ^ 127 := by norm_num))
  refine ⟨hr.1, ?_⟩
  have hpi : |9370165 / 2 ^ 29 - Real.pi / 180| ≤ 136 / 10 ^ 12 := by
    have h1 := Real.pi_gt_d20
    have h2 := Real.pi_lt_d20
    rw [abs_le]
    constructor <;> linarith
  have e : value x * value fRadsPerDeg - value x * (Real.pi / 180) = value x * (9370165 / 2 ^ 29 - Real.pi / 180) := by
    rw [value_degree]; ring
  have h2 : |value x * value fRadsPerDeg - value x * (Real.pi / 180)| ≤ 360 * n * (136 / 10 ^ 12) := by
    rw [e, abs_mul]
    exact mul_le_mul h.2 hpi (abs_nonneg _) (by positivity)
  have h3 := hr.2.1
  have h4 : |value (ieeeMul x fRadsPerDeg) - value x * (Real.pi / 180)| ≤
      |value (ieeeMul x fRadsPerDeg) - value x * value fRadsPerDeg| +
        |value x * value fRadsPerDeg - value x * (Real.pi / 180)| := by
    have := abs_add_le (value (ieeeMul x fRadsPerDeg) - value x * value fRadsPerDeg)
      (value x * value fRadsPerDeg - value x * (Real.pi / 180))
    rwa [sub_add_sub_cancel] at this
  have h5 : |value x * value fRadsPerDeg| / 2 ^ 24 ≤ 360 * n * (9370165 / 2 ^ 29) / 2 ^ 24 := by gcongr
  have h6 : (1 : ℝ) / 2 ^ 150 ≤ (n : ℝ) / 2 ^ 100 := by
    calc (1 : ℝ) / 2 ^ 150 ≤ 1 / 2 ^ 100 := by norm_num
      _ ≤ (n : ℝ) / 2 ^ 100 := by gcongr
  have h7 : (360 : ℝ) * n * (9370165 / 2 ^ 29) / 2 ^ 24 + n / 2 ^ 100 + 360 * n * (136 / 10 ^ 12) ≤ (4 * n : ℝ) / 2 ^ 23 := by
    have : (360 : ℝ) * (9370165 / 2 ^ 29) / 2 ^ 24 + 1 / 2 ^ 100 + 360 * (136 / 10 ^ 12) ≤ 4 / 2 ^ 23 := by norm_num
    have h8 := mul_le_mul_of_nonneg_left this (by linarith : (0 : ℝ) ≤ n)
    linarith [h8]
  linarith

theorem trig_near {f : F32 → F32} {g : ℝ → ℝ} {a : F32} {t : ℝ} {n : ℕ}
    (hf : (f a).isFinite = true ∧ |value (f a) - g (value a)| ≤ 1 / 2 ^ 23)
    (hl : ∀ u v, |g u - g v| ≤ |u - v|) (h1 : |g t| ≤ 1) (ha : |value a - t| ≤ (4 * n : ℝ) / 2 ^ 23) :
    Near (4 * n + 1) 1 (f a) (g t) := by
  refine ⟨hf.1, Or.inr le_rfl, h1, ?_⟩
  have h2 : |value (f a) - g t| ≤ |value (f a) - g (value a)| + |g (value a) - g t| := by
    have := abs_add_le (value (f a) - g (value a)) (g (value a) - g t)
    rwa [sub_add_sub_cancel] at this
  have h3 := hl (value a) t
  have h4 := grow_ge (4 * n + 1)
  push_cast at h4
  have : ((4 : ℝ) * n + 1) / 2 ^ 23 = (4 * n : ℝ) / 2 ^ 23 + 1 / 2 ^ 23 := by ring
  rw [_root_.one_mul]
  linarith [hf.2]

/-- the sine and the cosine of an angle in degrees -/
theorem degrees_near {sin cos : F32 → F32} (T : CloseTrig sin cos) {x : F32} {n : ℕ} (hn : 1 ≤ n)
    (h : AtMost (360 * n) x) (hbig : n ≤ 2 ^ 60) :
    Near (4 * n + 1) 1 (sin (ieeeMul x fRadsPerDeg)) (Real.sin (value x * (Real.pi / 180))) ∧
      Near (4 * n + 1) 1 (cos (ieeeMul x fRadsPerDeg)) (Real.cos (value x * (Real.pi / 180))) := by
  obtain ⟨hf, he⟩ := radians_near hn h hbig
  exact ⟨trig_near (T.sin _ hf) Real.abs_sin_sub_sin_le (Real.abs_sin_le_one _) he,
    trig_near (T.cos _ hf) Real.abs_cos_sub_cos_le (Real.abs_cos_le_one _) he⟩

end Rounding
end Vpin
