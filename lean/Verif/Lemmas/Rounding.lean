import Mathlib.Analysis.SpecialFunctions.Trigonometric.Bounds
import Mathlib.Analysis.Real.Pi.Bounds
import Mathlib.Tactic.Linarith
import Mathlib.Tactic.Positivity
import Mathlib.Tactic.FieldSimp
import Mathlib.Tactic.Ring
import Verif.Lemmas.FloatRound
import Verif.Spec.Rounding
/-! Rounding to single precision, with real numbers: the error of one operation and of several. -/
namespace Vpin
namespace Rounding

/-! ### One rounding -/

theorem bitsMag_max32 : bitsMag 0x800000 0x7f7fffff = (2 ^ 24 - 1) * 2 ^ 253 := by decide +kernel

theorem ulp_le {b : Nat} : 2 ^ (b / 0x800000 - 1) = 1 ∨ 2 ^ 23 * 2 ^ (b / 0x800000 - 1) ≤ bitsMag 0x800000 b := by
  rcases Nat.eq_zero_or_pos (b / 0x800000) with h | h
  · left; rw [h]; rfl
  · right; exact bitsMag_ge h

/-- a number between the midpoints to the neighbours of a bit pattern, in units of the least number: near, and nearest -/
theorem units_near {b : Nat} {N : ℝ} (hN0 : 0 ≤ N)
    (u' : 2 * N ≤ (bitsMag 0x800000 b : ℝ) + (bitsMag 0x800000 (b + 1) : ℝ))
    (l' : 0 < b → (bitsMag 0x800000 (b - 1) : ℝ) + (bitsMag 0x800000 b : ℝ) ≤ 2 * N) :
    |(bitsMag 0x800000 b : ℝ) - N| ≤ N / 2 ^ 24 + 1 / 2 ∧
    ∀ y : Nat, |(bitsMag 0x800000 b : ℝ) - N| ≤ |(bitsMag 0x800000 y : ℝ) - N| := by
  have s1 : (bitsMag 0x800000 (b + 1) : ℝ) = bitsMag 0x800000 b + 2 ^ (b / 0x800000 - 1) := by
    exact_mod_cast bitsMag_step (s := 0x800000) (b := b) (by decide)
  have p1 : (2 : ℝ) ^ (b / 0x800000 - 1) ≤ 1 ∨ 2 ^ 23 * (2 : ℝ) ^ (b / 0x800000 - 1) ≤ bitsMag 0x800000 b := by
    rcases ulp_le (b := b) with h | h
    · left; exact_mod_cast h.le
    · right; exact_mod_cast h
  have hmono : ∀ {x y : Nat}, x ≤ y → (bitsMag 0x800000 x : ℝ) ≤ bitsMag 0x800000 y := by
    intro x y h; exact_mod_cast bitsMag_mono (s := 0x800000) (by decide) h
  rcases le_or_gt (bitsMag 0x800000 b : ℝ) N with hle | hlt'
  · constructor
    · rw [abs_of_nonpos (by linarith)]
      rcases p1 with h | h
      · have : 0 ≤ N / 2 ^ 24 := by positivity
        linarith
      · have : (bitsMag 0x800000 b : ℝ) / 2 ^ 24 ≤ N / 2 ^ 24 := by gcongr
        have h3 : (2 : ℝ) ^ (b / 0x800000 - 1) / 2 ≤ (bitsMag 0x800000 b : ℝ) / 2 ^ 24 := by
          rw [le_div_iff₀ (by positivity)]; linarith
        linarith
    · intro y
      rw [abs_of_nonpos (by linarith)]
      rcases Nat.lt_or_ge b y with hy | hy
      · have := hmono (show b + 1 ≤ y from hy)
        have := le_abs_self ((bitsMag 0x800000 y : ℝ) - N)
        linarith
      · have := hmono hy
        have := neg_abs_le ((bitsMag 0x800000 y : ℝ) - N)
        linarith
  · have hb : 0 < b := by
      rcases Nat.eq_zero_or_pos b with h | h
      · rw [h] at hlt'
        have : (bitsMag 0x800000 0 : ℝ) = 0 := by exact_mod_cast (by decide +kernel : bitsMag 0x800000 0 = 0)
        linarith
      · exact h
    have l'' := l' hb
    have s2 : (bitsMag 0x800000 b : ℝ) = bitsMag 0x800000 (b - 1) + 2 ^ ((b - 1) / 0x800000 - 1) := by
      have := bitsMag_step (s := 0x800000) (b := b - 1) (by decide)
      rw [show b - 1 + 1 = b by omega] at this
      exact_mod_cast this
    have p2 : (2 : ℝ) ^ ((b - 1) / 0x800000 - 1) ≤ 1 ∨
        2 ^ 23 * (2 : ℝ) ^ ((b - 1) / 0x800000 - 1) ≤ bitsMag 0x800000 (b - 1) := by
      rcases ulp_le (b := b - 1) with h | h
      · left; exact_mod_cast h.le
      · right; exact_mod_cast h
    have hm1 : (bitsMag 0x800000 (b - 1) : ℝ) ≤ N := by
      have := hmono (show b - 1 ≤ b by omega)
      linarith
    constructor
    · rw [abs_of_pos (by linarith)]
      rcases p2 with h | h
      · have : 0 ≤ N / 2 ^ 24 := by positivity
        linarith
      · have : (bitsMag 0x800000 (b - 1) : ℝ) / 2 ^ 24 ≤ N / 2 ^ 24 := by gcongr
        have h3 : (2 : ℝ) ^ ((b - 1) / 0x800000 - 1) / 2 ≤ (bitsMag 0x800000 (b - 1) : ℝ) / 2 ^ 24 := by
          rw [le_div_iff₀ (by positivity)]; linarith
        linarith
    · intro y
      rw [abs_of_pos (by linarith)]
      rcases Nat.lt_or_ge y b with hy | hy
      · have := hmono (show y ≤ b - 1 by omega)
        have := neg_abs_le ((bitsMag 0x800000 y : ℝ) - N)
        linarith
      · have := hmono hy
        have := le_abs_self ((bitsMag 0x800000 y : ℝ) - N)
        linarith

/-- the rounded fraction in units of the least number: near, and nearest -/
theorem round_units {n d : Nat} (hd : 0 < d) (hm : n * 2 ^ 149 ≤ (2 ^ 24 - 1) * 2 ^ 253 * d) :
    (f32OfFrac n d).toNat < 0x7f800000 ∧
    |((f32OfFrac n d).mag : ℝ) - (n : ℝ) * 2 ^ 149 / d| ≤ (n : ℝ) * 2 ^ 149 / d / 2 ^ 24 + 1 / 2 ∧
    ∀ y : Nat, |((f32OfFrac n d).mag : ℝ) - (n : ℝ) * 2 ^ 149 / d| ≤
      |(bitsMag 0x800000 y : ℝ) - (n : ℝ) * 2 ^ 149 / d| := by
  have hlt : (f32OfFrac n d).toNat < 0x7f800000 := by
    rw [f32OfFrac_toNat]
    have := roundBits_le_of (p := 24) (q := 149) (inf := 0x7f800000) (y := 0x7f7fffff) (n := n) (d := d) (by decide) hd
      (by rw [show (2 : Nat) ^ (24 - 1) = 0x800000 from rfl, bitsMag_max32]; exact hm)
    omega
  refine ⟨hlt, ?_⟩
  obtain ⟨l, u⟩ := f32OfFrac_mid hd rfl hlt
  rw [F32.mag_pos (by omega)]
  generalize (f32OfFrac n d).toNat = b at l u hlt
  have hdR : (0 : ℝ) < d := by exact_mod_cast hd
  generalize hN : (n : ℝ) * 2 ^ 149 / d = N
  have hNd : (n : ℝ) * 2 ^ 149 = N * d := by rw [← hN]; field_simp
  have u' : 2 * N ≤ (bitsMag 0x800000 b : ℝ) + (bitsMag 0x800000 (b + 1) : ℝ) := by
    have h : (2 : ℝ) * ((n : ℝ) * 2 ^ 149) ≤ ((bitsMag 0x800000 b : ℝ) + (bitsMag 0x800000 (b + 1) : ℝ)) * d := by
      exact_mod_cast u
    rw [hNd] at h
    have h2 : (2 * N) * d ≤ ((bitsMag 0x800000 b : ℝ) + (bitsMag 0x800000 (b + 1) : ℝ)) * d := by linarith
    exact le_of_mul_le_mul_right h2 hdR
  have l' : 0 < b → (bitsMag 0x800000 (b - 1) : ℝ) + (bitsMag 0x800000 b : ℝ) ≤ 2 * N := by
    intro hb
    have h : ((bitsMag 0x800000 (b - 1) : ℝ) + (bitsMag 0x800000 b : ℝ)) * d ≤ (2 : ℝ) * ((n : ℝ) * 2 ^ 149) := by
      exact_mod_cast l hb
    rw [hNd] at h
    have h2 : ((bitsMag 0x800000 (b - 1) : ℝ) + (bitsMag 0x800000 b : ℝ)) * d ≤ (2 * N) * d := by linarith
    exact le_of_mul_le_mul_right h2 hdR
  exact units_near (by rw [← hN]; positivity) u' l'

/-! ### Signs -/

theorem neg_mod (x : F32) : x.neg.toNat % 0x80000000 = x.toNat % 0x80000000 := by
  unfold F32.neg
  rw [UInt32.toNat_xor, show (0x80000000 : UInt32).toNat = 2 ^ 31 from rfl, show (0x80000000 : Nat) = 2 ^ 31 from rfl,
    Nat.xor_mod_two_pow, Nat.mod_self, Nat.xor_zero]

theorem neg_isNeg (x : F32) : x.neg.isNeg = !x.isNeg := by
  have h : x.neg.toNat / 2 ^ 31 = (x.toNat / 2 ^ 31) ^^^ 1 := by
    unfold F32.neg
    rw [UInt32.toNat_xor, show (0x80000000 : UInt32).toNat = 2 ^ 31 from rfl, Nat.xor_div_two_pow,
      Nat.div_self (by positivity)]
  have hx : x.toNat < 2 ^ 32 := x.toNat_lt
  have hd : x.toNat / 2 ^ 31 = 0 ∨ x.toNat / 2 ^ 31 = 1 := by omega
  unfold F32.isNeg
  rcases hd with h0 | h0
  · rw [h0] at h
    have h1 : x.neg.toNat / 2 ^ 31 = 1 := h
    have e1 : ¬ x.toNat ≥ 0x80000000 := by omega
    have e2 : x.neg.toNat ≥ 0x80000000 := by omega
    simp [e1, e2]
  · rw [h0] at h
    have h1 : x.neg.toNat / 2 ^ 31 = 0 := h
    have e1 : x.toNat ≥ 0x80000000 := by omega
    have e2 : ¬ x.neg.toNat ≥ 0x80000000 := by omega
    simp [e1, e2]

theorem neg_mag (x : F32) : x.neg.mag = x.mag := by rw [F32.mag_eq, F32.mag_eq, neg_mod]

theorem neg_finite (x : F32) : x.neg.isFinite = x.isFinite := by unfold F32.isFinite; rw [neg_mod]

theorem value_neg (x : F32) : value x.neg = -value x := by
  unfold value
  rw [neg_mag, neg_isNeg]
  cases x.isNeg <;> simp

theorem value_val (x : F32) : value x = (x.val : ℝ) / 2 ^ 149 := by
  unfold value F32.val
  cases x.isNeg <;> simp <;> ring

theorem abs_value (x : F32) : |value x| = (x.mag : ℝ) / 2 ^ 149 := by
  unfold value
  have : (0 : ℝ) ≤ (x.mag : ℝ) / 2 ^ 149 := by positivity
  cases x.isNeg <;> simp [abs_of_nonneg this]

theorem finite_parts {x : F32} (h : x.isFinite = true) : x.isNaN = false ∧ x.isInf = false := by
  unfold F32.isFinite at h
  unfold F32.isNaN F32.isInf
  have h := of_decide_eq_true h
  constructor
  · exact decide_eq_false (by omega)
  · exact beq_eq_false_iff_ne.2 (by omega)

theorem finite_of_lt {x : F32} (h : x.toNat < 0x7f800000) : x.isFinite = true ∧ x.isNeg = false := by
  unfold F32.isFinite F32.isNeg
  rw [Nat.mod_eq_of_lt (by omega)]
  exact ⟨decide_eq_true h, decide_eq_false (by omega)⟩

/-! ### The result of an operation -/

/-- from units of the least number -/
theorem of_units {x : F32} {r : ℝ} (hr0 : 0 ≤ r) (h1 : x.toNat < 0x7f800000)
    (h2 : |(x.mag : ℝ) - r * 2 ^ 149| ≤ r * 2 ^ 149 / 2 ^ 24 + 1 / 2)
    (h3 : ∀ y : Nat, |(x.mag : ℝ) - r * 2 ^ 149| ≤ |(bitsMag 0x800000 y : ℝ) - r * 2 ^ 149|) : Rounds x r := by
  obtain ⟨hf, hn⟩ := finite_of_lt h1
  have hv : value x = (x.mag : ℝ) / 2 ^ 149 := by unfold value; rw [hn]; simp
  have hs : ∀ z : ℝ, |z / 2 ^ 149 - r| = |z - r * 2 ^ 149| / 2 ^ 149 := by
    intro z
    rw [show z / 2 ^ 149 - r = (z - r * 2 ^ 149) / 2 ^ 149 by field_simp, abs_div,
      abs_of_pos (by positivity : (0 : ℝ) < 2 ^ 149)]
  refine ⟨hf, ?_, ?_⟩
  · rw [hv, hs, abs_of_nonneg hr0, div_le_iff₀ (by positivity)]
    refine h2.trans (le_of_eq ?_)
    field_simp
  · intro y hy
    have h4 : |value x - r| ≤ |(y.mag : ℝ) / 2 ^ 149 - r| := by
      rw [hv, hs, hs]
      have := h3 (y.toNat % 0x80000000)
      rw [← F32.mag_eq] at this
      gcongr
    refine h4.trans ?_
    have h5 := abs_value y
    rw [← h5]
    exact (abs_abs_sub_abs_le (value y) r).trans_eq' (by rw [abs_of_nonneg hr0])

theorem frac_rounds {n d : Nat} (hd : 0 < d) (hr : (n : ℝ) / d ≤ 2 ^ 127) : Rounds (f32OfFrac n d) ((n : ℝ) / d) := by
  have hdR : (0 : ℝ) < d := by exact_mod_cast hd
  have hm : n * 2 ^ 149 ≤ (2 ^ 24 - 1) * 2 ^ 253 * d := by
    have h1 : n ≤ 2 ^ 127 * d := by
      have : (n : ℝ) ≤ 2 ^ 127 * d := by rwa [div_le_iff₀ hdR] at hr
      exact_mod_cast this
    calc n * 2 ^ 149 ≤ 2 ^ 127 * d * 2 ^ 149 := Nat.mul_le_mul_right _ h1
      _ = 2 ^ 23 * 2 ^ 253 * d := by rw [Nat.mul_right_comm]; congr 1
      _ ≤ (2 ^ 24 - 1) * 2 ^ 253 * d := Nat.mul_le_mul_right _ (Nat.mul_le_mul_right _ (by decide))
  obtain ⟨h1, h2, h3⟩ := round_units hd hm
  have e : (n : ℝ) / d * 2 ^ 149 = (n : ℝ) * 2 ^ 149 / d := by ring
  exact of_units (by positivity) h1 (by rw [e]; exact h2) (by rw [e]; exact h3)

theorem Rounds.neg {x : F32} {r : ℝ} (h : Rounds x r) : Rounds x.neg (-r) := by
  refine ⟨by rw [neg_finite]; exact h.1, ?_, fun y hy => ?_⟩
  · rw [value_neg, abs_neg, ← neg_sub', abs_neg]; exact h.2.1
  · have := h.2.2 y.neg (by rw [neg_finite]; exact hy)
    rw [value_neg] at this ⊢
    rw [← neg_sub', abs_neg]
    refine this.trans (le_of_eq ?_)
    rw [← abs_neg]; congr 1; ring

theorem signed_rounds {s : Bool} {n d : Nat} (hd : 0 < d) (hr : (n : ℝ) / d ≤ 2 ^ 127) :
    Rounds (f32Signed s n d) ((if s then -1 else 1) * ((n : ℝ) / d)) := by
  unfold f32Signed
  cases s
  · simpa using frac_rounds hd hr
  · simpa using (frac_rounds hd hr).neg

theorem value_zero : value 0 = 0 := by
  rw [value_val, show F32.val 0 = 0 by decide +kernel]; simp

theorem value_neg_zero : value 0x80000000 = 0 := by
  rw [value_val, show F32.val 0x80000000 = 0 by decide +kernel]; simp

theorem Rounds.exact {x : F32} (h : x.isFinite = true) : Rounds x (value x) := by
  refine ⟨h, ?_, fun y _ => ?_⟩
  · rw [sub_self, abs_zero]; positivity
  · rw [sub_self, abs_zero]; positivity

theorem add_rounds {a b : F32} (ha : a.isFinite = true) (hb : b.isFinite = true)
    (hr : |value a + value b| ≤ 2 ^ 127) : Rounds (ieeeAdd a b) (value a + value b) := by
  obtain ⟨a1, a2⟩ := finite_parts ha
  obtain ⟨b1, b2⟩ := finite_parts hb
  unfold ieeeAdd
  simp only [a1, a2, b1, b2, Bool.or_self, Bool.false_eq_true, if_false]
  have hv : value a + value b = ((a.val + b.val : Int) : ℝ) / 2 ^ 149 := by
    rw [value_val, value_val]; push_cast; ring
  rw [hv] at hr ⊢
  generalize a.val + b.val = s at hr ⊢
  by_cases h0 : s = 0
  · subst h0
    rw [if_pos rfl]
    simp only [Int.cast_zero, zero_div]
    split
    · have := Rounds.exact (x := 0x80000000) (by decide +kernel)
      rwa [value_neg_zero] at this
    · have := Rounds.exact (x := 0) (by decide +kernel)
      rwa [value_zero] at this
  · rw [if_neg h0]
    have habs : ((s.natAbs : Nat) : ℝ) = |(s : ℝ)| := by
      rw [← Int.cast_abs, ← Int.natCast_natAbs]; rfl
    have h2 : ((s.natAbs : Nat) : ℝ) / ((2 ^ 149 : Nat) : ℝ) ≤ 2 ^ 127 := by
      rw [habs, Nat.cast_pow, Nat.cast_ofNat]
      rwa [abs_div, abs_of_pos (by positivity : (0 : ℝ) < 2 ^ 149)] at hr
    have := signed_rounds (s := decide (s < 0)) (by positivity) h2
    convert this using 1
    rw [habs, Nat.cast_pow, Nat.cast_ofNat]
    by_cases hneg : s < 0
    · rw [abs_of_neg (by exact_mod_cast hneg)]; simp [hneg]; ring
    · rw [abs_of_nonneg (by exact_mod_cast (not_lt.1 hneg))]; simp [hneg]

theorem sub_rounds {a b : F32} (ha : a.isFinite = true) (hb : b.isFinite = true)
    (hr : |value a - value b| ≤ 2 ^ 127) : Rounds (ieeeAdd a b.neg) (value a - value b) := by
  have := add_rounds ha (b := b.neg) (by rw [neg_finite]; exact hb)
    (by rw [value_neg, ← sub_eq_add_neg]; exact hr)
  rwa [value_neg, ← sub_eq_add_neg] at this

theorem sign_mul (a b : Bool) :
    (if a then (-1 : ℝ) else 1) * (if b then -1 else 1) = if (a != b) then -1 else 1 := by
  cases a <;> cases b <;> norm_num

theorem mul_rounds {a b : F32} (ha : a.isFinite = true) (hb : b.isFinite = true)
    (hr : |value a * value b| ≤ 2 ^ 127) : Rounds (ieeeMul a b) (value a * value b) := by
  obtain ⟨a1, a2⟩ := finite_parts ha
  obtain ⟨b1, b2⟩ := finite_parts hb
  unfold ieeeMul
  simp only [a1, a2, b1, b2, Bool.or_self, Bool.false_eq_true, if_false]
  have h2 : ((a.mag * b.mag : Nat) : ℝ) / ((2 ^ 298 : Nat) : ℝ) ≤ 2 ^ 127 := by
    rw [abs_mul, abs_value, abs_value] at hr
    refine le_trans (le_of_eq ?_) hr
    rw [Nat.cast_mul, Nat.cast_pow, Nat.cast_ofNat]; field_simp
  have := signed_rounds (s := a.isNeg != b.isNeg) (by positivity) h2
  convert this using 1
  rw [← sign_mul]
  unfold value
  rw [Nat.cast_mul, Nat.cast_pow, Nat.cast_ofNat]
  field_simp

theorem div_rounds {a b : F32} (ha : a.isFinite = true) (hb : b.isFinite = true) (h0 : value b ≠ 0)
    (hr : |value a / value b| ≤ 2 ^ 127) : Rounds (ieeeDiv a b) (value a / value b) := by
  obtain ⟨a1, a2⟩ := finite_parts ha
  obtain ⟨b1, b2⟩ := finite_parts hb
  have hb0 : b.mag ≠ 0 := by
    intro h; apply h0; unfold value; rw [h]; simp
  have hbR : (0 : ℝ) < b.mag := by exact_mod_cast Nat.pos_of_ne_zero hb0
  unfold ieeeDiv
  simp only [a1, a2, b1, b2, Bool.or_self, Bool.false_eq_true, if_false, hb0]
  have h2 : ((a.mag : Nat) : ℝ) / ((b.mag : Nat) : ℝ) ≤ 2 ^ 127 := by
    rw [abs_div, abs_value, abs_value] at hr
    refine le_trans (le_of_eq ?_) hr
    field_simp
  have := signed_rounds (s := a.isNeg != b.isNeg) (Nat.pos_of_ne_zero hb0) h2
  convert this using 1
  rw [← sign_mul]
  unfold value
  cases a.isNeg <;> cases b.isNeg <;> simp <;> field_simp

/-! ### The square root -/

theorem isqrt_eq (n : Nat) (hn : 0 < n) : ∀ fuel x : Nat, 0 < x → Nat.sqrt n ≤ x → x - Nat.sqrt n < 2 ^ fuel →
    isqrt n fuel x = Nat.sqrt n
  | 0, x, _, h1, h2 => by
    rw [show isqrt n 0 x = x from rfl]; simp at h2; omega
  | fuel + 1, x, h0, h1, h2 => by
    have e : isqrt n (fuel + 1) x = if (x + n / x) / 2 < x then isqrt n fuel ((x + n / x) / 2) else x := rfl
    rw [e]
    have hs1 : Nat.sqrt n * Nat.sqrt n ≤ n := Nat.sqrt_le n
    have hs2 : n < (Nat.sqrt n + 1) * (Nat.sqrt n + 1) := Nat.lt_succ_sqrt n
    have hge : Nat.sqrt n ≤ (x + n / x) / 2 := by
      have : 2 * Nat.sqrt n - x ≤ n / x := by
        rw [Nat.le_div_iff_mul_le h0]
        refine le_trans ?_ hs1
        obtain ⟨k, hk⟩ := Nat.exists_eq_add_of_le h1
        rcases Nat.le_total x (2 * Nat.sqrt n) with h | h
        · obtain ⟨j, hj⟩ := Nat.exists_eq_add_of_le h
          rw [show 2 * Nat.sqrt n - x = j by omega]
          have h5 : Nat.sqrt n = k + j := by omega
          rw [hk, h5]
          nlinarith
        · rw [show 2 * Nat.sqrt n - x = 0 by omega]; omega
      omega
    by_cases hx : x = Nat.sqrt n
    · rw [if_neg (by omega), hx]
    · have hle : n / x ≤ Nat.sqrt n := by
        have : n / x < Nat.sqrt n + 1 := by
          rw [Nat.div_lt_iff_lt_mul h0]
          exact lt_of_lt_of_le hs2 (Nat.mul_le_mul_left _ (by omega))
        omega
      rw [if_pos (by omega)]
      rw [Nat.pow_succ] at h2
      have hp : 0 < (x + n / x) / 2 := lt_of_lt_of_le (Nat.sqrt_pos.2 hn) hge
      exact isqrt_eq n hn fuel _ hp hge (by omega)

/-- the start of Newton's method is large enough, and the steps are enough -/
theorem isqrt_start {n : Nat} (hn : 0 < n) (h : n < 2 ^ 600) :
    isqrt n 600 (2 ^ (Nat.log2 n / 2 + 1)) = Nat.sqrt n := by
  refine isqrt_eq n hn 600 _ (Nat.two_pow_pos _) ?_ ?_
  · rw [← Nat.lt_succ_iff, Nat.sqrt_lt]
    have h1 : n < 2 ^ (Nat.log2 n + 1) := Nat.lt_log2_self
    refine lt_of_lt_of_le h1 ?_
    refine le_trans ?_ (Nat.mul_le_mul (Nat.le_succ _) (Nat.le_succ _))
    rw [← Nat.pow_add]
    exact Nat.pow_le_pow_right (by omega) (by omega)
  · have h1 : Nat.log2 n < 600 := (Nat.log2_lt (by omega)).2 h
    refine lt_of_le_of_lt (Nat.sub_le _ _) ?_
    exact Nat.pow_lt_pow_right (by omega) (by omega)

theorem mag_lt {a : F32} (h : a.isFinite = true) : a.mag < 2 ^ 277 := by
  unfold F32.isFinite at h
  have h := of_decide_eq_true h
  rw [F32.mag_eq, ← bitsMag_inf32]
  exact bitsMag_lt (by decide) h

theorem sqrt_between {n s : Nat} (hs1 : s * s ≤ n) (hs2 : n < (s + 1) * (s + 1)) :
    (s : ℝ) ≤ Real.sqrt n ∧ Real.sqrt n ≤ (s : ℝ) + 1 := by
  have h1 : ((s * s : Nat) : ℝ) ≤ n := Nat.cast_le.2 hs1
  have h2 : (n : ℝ) ≤ (((s + 1) * (s + 1) : Nat) : ℝ) := Nat.cast_le.2 hs2.le
  constructor
  · exact Real.le_sqrt_of_sq_le (by rw [sq]; simpa using h1)
  · rw [Real.sqrt_le_left (by positivity), sq]; simpa using h2

/-- bits below the middle -/
theorem below_mid {s c P : Nat} (hP : 0 < P) (h : 2 * ((2 * s + 1) * P) ≤ c * (2 ^ 52 * P)) : s + 1 ≤ c * 2 ^ 50 := by
  have e : c * (2 ^ 52 * P) = (c * 2 ^ 50 * 2) * (2 * P) := by
    rw [show (2 : Nat) ^ 52 = 2 ^ 50 * 2 * 2 from rfl]; ring
  have e2 : 2 * ((2 * s + 1) * P) = (2 * s + 1) * (2 * P) := by ring
  rw [e, e2] at h
  have := Nat.le_of_mul_le_mul_right h (Nat.mul_pos (by decide) hP)
  omega

theorem above_mid {s c P : Nat} (hP : 0 < P) (h : c * (2 ^ 52 * P) ≤ 2 * ((2 * s + 1) * P)) : c * 2 ^ 50 ≤ s := by
  have e : c * (2 ^ 52 * P) = (c * 2 ^ 50 * 2) * (2 * P) := by
    rw [show (2 : Nat) ^ 52 = 2 ^ 50 * 2 * 2 from rfl]; ring
  have e2 : 2 * ((2 * s + 1) * P) = (2 * s + 1) * (2 * P) := by ring
  rw [e, e2] at h
  have := Nat.le_of_mul_le_mul_right h (Nat.mul_pos (by decide) hP)
  omega

theorem pow_201 : (2 : Nat) ^ 201 = 2 ^ 52 * 2 ^ 149 := (Nat.pow_add 2 52 149)

theorem unit_sqrt (x : ℝ) : 2 * (x / 2 ^ 200 * 2 ^ 149) = x / 2 ^ 50 := by
  rw [show (2 : ℝ) ^ 200 = 2 ^ 50 * (2 * 2 ^ 149) by rw [← pow_succ', ← pow_add]]
  field_simp

theorem small_root {s : Nat} (h : s < 2 ^ 264) : (2 * s + 1) * 2 ^ 149 ≤ (2 ^ 24 - 1) * 2 ^ 253 * 2 ^ 201 := by
  have h1 : 2 * s + 1 ≤ 2 ^ 265 := by
    rw [show (2 : Nat) ^ 265 = 2 * 2 ^ 264 from Nat.pow_succ'.trans rfl]
    generalize 2 ^ 264 = P at h ⊢
    omega
  refine le_trans (Nat.mul_le_mul_right _ h1) ?_
  have e : (2 : Nat) ^ 265 * 2 ^ 149 = 1 * 2 ^ 253 * 2 ^ 161 := by
    rw [Nat.one_mul, ← Nat.pow_add, ← Nat.pow_add]
  rw [e]
  exact Nat.mul_le_mul (Nat.mul_le_mul_right _ (by decide)) (Nat.pow_le_pow_right (by omega) (by omega))

theorem root_lt {n s k : Nat} (hr : n < 2 ^ k * 2 ^ k) (hs1 : s * s ≤ n) : s < 2 ^ k := by
  refine not_le.1 fun h => ?_
  have h2 : 2 ^ k * 2 ^ k ≤ s * s := Nat.mul_le_mul h h
  omega

/-- the square root in units of the least number lies between the midpoints -/
theorem sqrt_mid {n : Nat} (hr : n < 2 ^ 264 * 2 ^ 264) :
    Rounds (f32OfFrac (2 * Nat.sqrt n + 1) (2 ^ 201)) (Real.sqrt n / 2 ^ 200) := by
  have hs1 : Nat.sqrt n * Nat.sqrt n ≤ n := Nat.sqrt_le n
  have hs2 : n < (Nat.sqrt n + 1) * (Nat.sqrt n + 1) := Nat.lt_succ_sqrt n
  generalize Nat.sqrt n = s at hs1 hs2
  obtain ⟨lo, hi⟩ := sqrt_between hs1 hs2
  obtain ⟨hlt, -, -⟩ := round_units (n := 2 * s + 1) (d := 2 ^ 201) (Nat.two_pow_pos _) (small_root (root_lt hr hs1))
  obtain ⟨l, u⟩ := f32OfFrac_mid (n := 2 * s + 1) (d := 2 ^ 201) (Nat.two_pow_pos _) rfl hlt
  clear hr hs1 hs2
  have hmag := F32.mag_pos (x := f32OfFrac (2 * s + 1) (2 ^ 201)) (by omega)
  suffices key : ∀ b, 2 * ((2 * s + 1) * 2 ^ 149) ≤ (bitsMag 0x800000 b + bitsMag 0x800000 (b + 1)) * 2 ^ 201 →
      (0 < b → (bitsMag 0x800000 (b - 1) + bitsMag 0x800000 b) * 2 ^ 201 ≤ 2 * ((2 * s + 1) * 2 ^ 149)) →
      |(bitsMag 0x800000 b : ℝ) - Real.sqrt n / 2 ^ 200 * 2 ^ 149| ≤
        Real.sqrt n / 2 ^ 200 * 2 ^ 149 / 2 ^ 24 + 1 / 2 ∧
      ∀ y : Nat, |(bitsMag 0x800000 b : ℝ) - Real.sqrt n / 2 ^ 200 * 2 ^ 149| ≤
        |(bitsMag 0x800000 y : ℝ) - Real.sqrt n / 2 ^ 200 * 2 ^ 149| by
    have k := key _ u l
    rw [← hmag] at k
    exact of_units (by positivity) hlt k.1 k.2
  clear l u hmag hlt
  intro b u l
  rw [pow_201] at l u
  refine units_near (by positivity) ?_ ?_
  · have h := below_mid (Nat.two_pow_pos _) u
    rw [unit_sqrt, div_le_iff₀ (by positivity)]
    have h2 : (s : ℝ) + 1 ≤ ((bitsMag 0x800000 b : ℝ) + (bitsMag 0x800000 (b + 1) : ℝ)) * 2 ^ 50 := by exact_mod_cast h
    exact hi.trans h2
  · intro h0
    have h := above_mid (Nat.two_pow_pos _) (l h0)
    rw [unit_sqrt, le_div_iff₀ (by positivity)]
    have h2 : ((bitsMag 0x800000 (b - 1) : ℝ) + (bitsMag 0x800000 b : ℝ)) * 2 ^ 50 ≤ (s : ℝ) := by exact_mod_cast h
    exact h2.trans lo

theorem sqrt_rounds {a : F32} (ha : a.isFinite = true) (h0 : 0 ≤ value a) :
    Rounds (ieeeSqrt a) (Real.sqrt (value a)) := by
  obtain ⟨a1, a2⟩ := finite_parts ha
  unfold ieeeSqrt
  simp only [a1, a2, Bool.false_eq_true, if_false]
  by_cases hm : a.mag = 0
  · rw [if_pos hm]
    have hv : value a = 0 := by unfold value; rw [hm]; simp
    have := Rounds.exact ha
    rw [hv] at this ⊢
    rwa [Real.sqrt_zero]
  · rw [if_neg hm]
    have hmR : (0 : ℝ) < a.mag := Nat.cast_pos.2 (Nat.pos_of_ne_zero hm)
    have hneg : a.isNeg = false := by
      rcases Bool.eq_false_or_eq_true a.isNeg with h | h
      · exfalso
        unfold value at h0
        rw [h] at h0
        have : (0 : ℝ) < (a.mag : ℝ) / 2 ^ 149 := by positivity
        simp only [if_true] at h0
        linarith
      · exact h
    simp only [hneg, Bool.false_eq_true, if_false]
    have hn : 0 < a.mag * 2 ^ 251 := Nat.mul_pos (Nat.pos_of_ne_zero hm) (Nat.two_pow_pos _)
    have hlt : a.mag * 2 ^ 251 < 2 ^ 264 * 2 ^ 264 := by
      rw [← Nat.pow_add, show (264 + 264 : Nat) = 277 + 251 from rfl, Nat.pow_add]
      exact Nat.mul_lt_mul_of_pos_right (mag_lt ha) (Nat.two_pow_pos _)
    have hv : Real.sqrt (value a) = Real.sqrt ((a.mag * 2 ^ 251 : Nat) : ℝ) / 2 ^ 200 := by
      have hval : value a = ((a.mag * 2 ^ 251 : Nat) : ℝ) / (2 ^ 200) ^ 2 := by
        unfold value
        rw [hneg, ← pow_mul, Nat.cast_mul, Nat.cast_pow, Nat.cast_ofNat, show (200 * 2 : Nat) = 251 + 149 from rfl,
          pow_add]
        simp only [Bool.false_eq_true, if_false, one_mul]
        field_simp
      rw [hval, Real.sqrt_div (Nat.cast_nonneg _), Real.sqrt_sq (by positivity)]
    rw [hv]
    generalize a.mag * 2 ^ 251 = n at hn hlt
    rw [isqrt_start hn (lt_trans hlt (by rw [← Nat.pow_add]; exact Nat.pow_lt_pow_right (by omega) (by omega)))]
    split
    · rename_i hs
      have e : Real.sqrt (n : ℝ) = Nat.sqrt n := by
        conv_lhs => rw [← hs]
        rw [Nat.cast_mul, Real.sqrt_mul_self (Nat.cast_nonneg _)]
      rw [e]
      have := frac_rounds (n := Nat.sqrt n) (d := 2 ^ 200) (Nat.two_pow_pos _) ?_
      · rwa [Nat.cast_pow, Nat.cast_ofNat] at this
      · rw [Nat.cast_pow, Nat.cast_ofNat, div_le_iff₀ (by positivity), ← pow_add]
        have h1 : Nat.sqrt n ≤ 2 ^ 327 :=
          (root_lt hlt (Nat.sqrt_le n)).le.trans (Nat.pow_le_pow_right (by omega) (by omega))
        have h2 : ((Nat.sqrt n : Nat) : ℝ) ≤ ((2 ^ 327 : Nat) : ℝ) := Nat.cast_le.2 h1
        rwa [Nat.cast_pow, Nat.cast_ofNat] at h2
    · exact sqrt_mid hlt

end Rounding
end Vpin
