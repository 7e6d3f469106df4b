import Verif.Lemmas.FloatRound
import Verif.Lemmas.Obj
/-! The flipped V coordinate is exact. -/
namespace Vpin

theorem f64_pos {y : F64} (h : y.toNat < 0x7ff0000000000000) :
    y.isNaN = false ∧ y.isInf = false ∧ y.isNeg = false := by
  unfold F64.isNaN F64.isInf F64.isNeg
  rw [Nat.mod_eq_of_lt (by omega)]
  simp only [decide_eq_false_iff_not, beq_eq_false_iff_ne]
  omega

theorem f64_neg_toNat {y : F64} (h : y.toNat < 0x8000000000000000) :
    (0x8000000000000000 ||| y).toNat = 0x8000000000000000 + y.toNat := by
  rw [UInt64.toNat_or]
  have := Nat.two_pow_add_eq_or_of_lt (i := 63) (b := y.toNat) h 1
  simpa using this.symm

theorem f64_neg {y : F64} (h : y.toNat < 0x7ff0000000000000) :
    (0x8000000000000000 ||| y).isNaN = false ∧ (0x8000000000000000 ||| y).isInf = false ∧
    (0x8000000000000000 ||| y).isNeg = true ∧ (0x8000000000000000 ||| y).mag = y.mag := by
  have e := f64_neg_toNat (y := y) (by omega)
  have e2 : (0x8000000000000000 + y.toNat) % 0x8000000000000000 = y.toNat := by omega
  refine ⟨?_, ?_, ?_, ?_⟩
  · unfold F64.isNaN; rw [e, e2]; simp only [decide_eq_false_iff_not]; omega
  · unfold F64.isInf; rw [e, e2]; simp only [beq_eq_false_iff_ne]; omega
  · unfold F64.isNeg; rw [e]; simp
  · rw [F64.mag_eq, F64.mag_eq, e, e2, Nat.mod_eq_of_lt (by omega)]

theorem f32_neg_toNat {y : F32} (h : y.toNat < 0x80000000) :
    (0x80000000 ||| y).toNat = 0x80000000 + y.toNat := by
  rw [UInt32.toNat_or]
  have := Nat.two_pow_add_eq_or_of_lt (i := 31) (b := y.toNat) h 1
  simpa using this.symm

theorem F64.toF32_pos {y : F64} (h : y.toNat < 0x7ff0000000000000) : y.toF32 = f32OfFrac y.mag (2 ^ 1074) := by
  obtain ⟨h1, h2, h3⟩ := f64_pos h
  unfold F64.toF32
  rw [h1, h2, h3]
  simp

theorem F64.oneMinus_pos {y : F64} (h : y.toNat < 0x7ff0000000000000) (hm : y.mag ≤ 2 ^ 1074) :
    y.oneMinus = f64OfFrac (2 ^ 1074 - y.mag) (2 ^ 1074) := by
  obtain ⟨h1, h2, h3⟩ := f64_pos h
  unfold F64.oneMinus
  rw [h1, h2, h3]
  simp only [Bool.false_eq_true, if_false]
  rw [if_pos hm]

theorem F64.oneMinus_big {y : F64} (h : y.toNat < 0x7ff0000000000000) (hm : 2 ^ 1074 < y.mag) :
    y.oneMinus = 0x8000000000000000 ||| f64OfFrac (y.mag - 2 ^ 1074) (2 ^ 1074) := by
  obtain ⟨h1, h2, h3⟩ := f64_pos h
  unfold F64.oneMinus
  rw [h1, h2, h3]
  simp only [Bool.false_eq_true, if_false]
  rw [if_neg (Nat.not_le.2 hm)]

theorem F64.oneMinus_neg {y : F64} (h : y.toNat < 0x7ff0000000000000) :
    (0x8000000000000000 ||| y).oneMinus = f64OfFrac (2 ^ 1074 + y.mag) (2 ^ 1074) := by
  obtain ⟨h1, h2, h3, h4⟩ := f64_neg h
  unfold F64.oneMinus
  rw [h1, h2, h3, h4]
  simp

theorem F64.toF32_neg {y : F64} (h : y.toNat < 0x7ff0000000000000) :
    (0x8000000000000000 ||| y).toF32 = 0x80000000 ||| f32OfFrac y.mag (2 ^ 1074) := by
  obtain ⟨h1, h2, h3, h4⟩ := f64_neg h
  unfold F64.toF32
  rw [h1, h2, h3, h4]
  simp

/-- a big power that stays folded -/
theorem pow_split (a b : Nat) : 2 ^ (a + b) = 2 ^ a * 2 ^ b := Nat.pow_add 2 a b

/-- the last rounding: between the midpoints -/
theorem toF32_of_bounds {z : F64} {x : F32} {lo hi : Nat} (hz : z.toNat < 0x7ff0000000000000)
    (hx : x.toNat ≤ 0x7f800000) (h1 : lo * 2 ^ 1048 ≤ z.mag) (h2 : z.mag ≤ hi * 2 ^ 1048)
    (b1 : bitsMag 0x800000 (x.toNat - 1) + bitsMag 0x800000 x.toNat < lo * 2 ^ 124)
    (b2 : hi * 2 ^ 124 < bitsMag 0x800000 x.toNat + bitsMag 0x800000 (x.toNat + 1)) : z.toF32 = x := by
  rw [F64.toF32_pos hz]
  have e : ∀ k, 2 * (k * 2 ^ 1048 * 2 ^ 149) = k * 2 ^ 124 * 2 ^ 1074 := by
    intro k
    rw [Nat.mul_assoc, ← Nat.pow_add, Nat.mul_assoc, ← Nat.pow_add, Nat.mul_comm 2, Nat.mul_assoc, ← Nat.pow_succ]
  refine f32OfFrac_of_mid (Nat.two_pow_pos _) hx (fun _ => ?_) ?_
  · refine Nat.lt_of_lt_of_le (Nat.mul_lt_mul_of_pos_right b1 (Nat.two_pow_pos 1074)) ?_
    rw [← e]
    exact Nat.mul_le_mul_left _ (Nat.mul_le_mul_right _ h1)
  · refine Nat.lt_of_le_of_lt ?_ (Nat.mul_lt_mul_of_pos_right b2 (Nat.two_pow_pos 1074))
    rw [← e]
    exact Nat.mul_le_mul_left _ (Nat.mul_le_mul_right _ h2)

theorem small_lt {m j : Nat} (hm : m ≤ 2 ^ 53) (hj : j ≤ 2000) : m * 2 ^ j < 2 ^ 2098 := by
  have h1 : m * 2 ^ j ≤ 2 ^ 53 * 2 ^ 2000 := Nat.mul_le_mul hm (Nat.pow_le_pow_right (by omega) hj)
  rw [← Nat.pow_add] at h1
  exact Nat.lt_of_le_of_lt h1 (Nat.pow_lt_pow_right (by omega) (by omega))

theorem one64 : (2 : Nat) ^ 1074 = 2 ^ 26 * 2 ^ 1048 := by rw [← Nat.pow_add]

/-- reading `n / d`, which is close to `1 - x`, gives `x` again -/
theorem flip_back_pos {n d c1 c2 : Nat} {x : F32} (hd : 0 < d) (hx : x.toNat ≤ 0x7f800000)
    (h1 : c1 * d ≤ n * 2 ^ 26) (h2 : n * 2 ^ 26 ≤ c2 * d) (hc : c1 ≤ c2) (hc2 : c2 ≤ 2 ^ 26)
    (b1 : bitsMag 0x800000 (x.toNat - 1) + bitsMag 0x800000 x.toNat < (2 ^ 26 - c2) * 2 ^ 124)
    (b2 : (2 ^ 26 - c1) * 2 ^ 124 < bitsMag 0x800000 x.toNat + bitsMag 0x800000 (x.toNat + 1)) :
    (f64OfFrac n d).oneMinus.toF32 = x := by
  have e1 : ∀ c, c * 2 ^ 1048 * d = c * d * 2 ^ 1048 := fun c => Nat.mul_right_comm _ _ _
  have e2 : n * 2 ^ 1074 = n * 2 ^ 26 * 2 ^ 1048 := by rw [one64, ← Nat.mul_assoc]
  have m1 := f64OfFrac_mag_ge (n := n) (m := c1) (j := 1048) hd (by omega) (small_lt (by omega) (by omega))
    (by rw [e1, e2]; exact Nat.mul_le_mul_right _ h1)
  obtain ⟨m2, i2⟩ := f64OfFrac_mag_le (n := n) (m := c2) (j := 1048) hd (by omega) (small_lt (by omega) (by omega))
    (by rw [e1, e2]; exact Nat.mul_le_mul_right _ h2)
  have hle : (f64OfFrac n d).mag ≤ 2 ^ 1074 := by
    refine Nat.le_trans m2 ?_
    rw [one64]
    exact Nat.mul_le_mul_right _ hc2
  rw [F64.oneMinus_pos i2 hle]
  generalize (f64OfFrac n d).mag = w at *
  have hp : (0 : Nat) < 2 ^ 1074 := Nat.two_pow_pos _
  have z1 := f64OfFrac_mag_ge (n := 2 ^ 1074 - w) (d := 2 ^ 1074) (m := 2 ^ 26 - c2) (j := 1048) hp (by omega)
    (small_lt (by omega) (by omega)) (by
      refine Nat.mul_le_mul_right _ ?_
      rw [Nat.sub_mul, ← one64]
      exact Nat.sub_le_sub_left m2 _)
  obtain ⟨z2, i3⟩ := f64OfFrac_mag_le (n := 2 ^ 1074 - w) (d := 2 ^ 1074) (m := 2 ^ 26 - c1) (j := 1048) hp (by omega)
    (small_lt (by omega) (by omega)) (by
      refine Nat.mul_le_mul_right _ ?_
      rw [Nat.sub_mul, ← one64]
      exact Nat.sub_le_sub_left m1 _)
  exact toF32_of_bounds i3 hx z1 z2 b1 b2

/-- the same for numbers above 1: `- n / d` is read -/
theorem flip_back_neg {n d c1 c2 : Nat} {x : F32} (hd : 0 < d) (hx : x.toNat ≤ 0x7f800000)
    (h1 : c1 * d ≤ n * 2 ^ 26) (h2 : n * 2 ^ 26 ≤ c2 * d) (hc : c1 ≤ c2) (hc2 : c2 ≤ 2 ^ 27)
    (b1 : bitsMag 0x800000 (x.toNat - 1) + bitsMag 0x800000 x.toNat < (2 ^ 26 + c1) * 2 ^ 124)
    (b2 : (2 ^ 26 + c2) * 2 ^ 124 < bitsMag 0x800000 x.toNat + bitsMag 0x800000 (x.toNat + 1)) :
    (0x8000000000000000 ||| f64OfFrac n d).oneMinus.toF32 = x := by
  have e1 : ∀ c, c * 2 ^ 1048 * d = c * d * 2 ^ 1048 := fun c => Nat.mul_right_comm _ _ _
  have e2 : n * 2 ^ 1074 = n * 2 ^ 26 * 2 ^ 1048 := by rw [one64, ← Nat.mul_assoc]
  have m1 := f64OfFrac_mag_ge (n := n) (m := c1) (j := 1048) hd (by omega) (small_lt (by omega) (by omega))
    (by rw [e1, e2]; exact Nat.mul_le_mul_right _ h1)
  obtain ⟨m2, i2⟩ := f64OfFrac_mag_le (n := n) (m := c2) (j := 1048) hd (by omega) (small_lt (by omega) (by omega))
    (by rw [e1, e2]; exact Nat.mul_le_mul_right _ h2)
  rw [F64.oneMinus_neg i2]
  generalize (f64OfFrac n d).mag = w at *
  have hp : (0 : Nat) < 2 ^ 1074 := Nat.two_pow_pos _
  have z1 := f64OfFrac_mag_ge (n := 2 ^ 1074 + w) (d := 2 ^ 1074) (m := 2 ^ 26 + c1) (j := 1048) hp (by omega)
    (small_lt (by omega) (by omega)) (by
      refine Nat.mul_le_mul_right _ ?_
      rw [Nat.add_mul, ← one64]
      exact Nat.add_le_add_left m1 _)
  obtain ⟨z2, i3⟩ := f64OfFrac_mag_le (n := 2 ^ 1074 + w) (d := 2 ^ 1074) (m := 2 ^ 26 + c2) (j := 1048) hp (by omega)
    (small_lt (by omega) (by omega)) (by
      refine Nat.mul_le_mul_right _ ?_
      rw [Nat.add_mul, ← one64]
      exact Nat.add_le_add_left m2 _)
  exact toF32_of_bounds i3 hx z1 z2 b1 b2

/-- a number whose text is near: bounds in units of 2^-26 -/
theorem near_bounds {n d k : Nat} {r : F32} {g : Nat} (hd : 0 < d) (h : f32OfFrac n d = r) (hr : r.toNat < 0x7f800000)
    (hk : bitsMag 0x800000 r.toNat = k * 2 ^ 125)
    (hu : bitsMag 0x800000 (r.toNat + 1) ≤ k * 2 ^ 125 + g * 2 ^ 124)
    (hl : 0 < r.toNat → k * 2 ^ 125 ≤ bitsMag 0x800000 (r.toNat - 1) + g * 2 ^ 124) :
    (4 * k - g) * d ≤ n * 2 ^ 26 ∧ n * 2 ^ 26 ≤ (4 * k + g) * d := by
  obtain ⟨l, u⟩ := f32OfFrac_mid hd h hr
  rw [hk] at l u
  have e : 2 * (n * 2 ^ 149) = n * 2 ^ 26 * 2 ^ 124 := by
    rw [Nat.mul_assoc n, ← Nat.pow_add, Nat.mul_comm 2, Nat.mul_assoc, ← Nat.pow_succ]
  rw [e] at l u
  constructor
  · refine Nat.le_of_mul_le_mul_right (c := 2 ^ 124) ?_ (Nat.two_pow_pos _)
    rcases Nat.eq_zero_or_pos r.toNat with h0 | h0
    · have : k = 0 := by
        rw [h0] at hk
        have : bitsMag 0x800000 0 = 0 := by decide
        omega
      rw [this]; simp
    · refine Nat.le_trans ?_ (l h0)
      have h3 : (4 * k - g) * 2 ^ 124 ≤ bitsMag 0x800000 (r.toNat - 1) + k * 2 ^ 125 := by
        have := hl h0
        rw [Nat.sub_mul]
        have e3 : 4 * k * 2 ^ 124 = k * 2 ^ 125 + k * 2 ^ 125 := by
          have : (2 : Nat) ^ 125 = 2 * 2 ^ 124 := by decide
          rw [this]; omega
        omega
      have h4 := Nat.mul_le_mul_right d h3
      have e5 : (4 * k - g) * d * 2 ^ 124 = (4 * k - g) * 2 ^ 124 * d := Nat.mul_right_comm _ _ _
      rw [e5]; exact h4
  · refine Nat.le_of_mul_le_mul_right (c := 2 ^ 124) ?_ (Nat.two_pow_pos _)
    refine Nat.le_trans u ?_
    have h3 : k * 2 ^ 125 + bitsMag 0x800000 (r.toNat + 1) ≤ (4 * k + g) * 2 ^ 124 := by
      rw [Nat.add_mul]
      have e3 : 4 * k * 2 ^ 124 = k * 2 ^ 125 + k * 2 ^ 125 := by
        have : (2 : Nat) ^ 125 = 2 * 2 ^ 124 := by decide
        rw [this]; omega
      rw [e3, Nat.add_assoc]
      exact Nat.add_le_add_left hu _
    have h4 := Nat.mul_le_mul_right d h3
    have e5 : (4 * k + g) * d * 2 ^ 124 = (4 * k + g) * 2 ^ 124 * d := Nat.mul_right_comm _ _ _
    rw [e5]; exact h4

/-- steps around a number below `2^24 * 2^e` -/
theorem steps {b e : Nat} (h : bitsMag 0x800000 b < 2 ^ 23 * 2 ^ (e + 1)) :
    bitsMag 0x800000 (b + 1) ≤ bitsMag 0x800000 b + 2 ^ e ∧
    (0 < b → bitsMag 0x800000 b ≤ bitsMag 0x800000 (b - 1) + 2 ^ e) := by
  have hq : b / 0x800000 - 1 ≤ e := by
    rcases Nat.eq_zero_or_pos (b / 0x800000) with h0 | h0
    · omega
    · have h1 := bitsMag_ge (s := 0x800000) h0
      have h2 : (2 : Nat) ^ (b / 0x800000 - 1) < 2 ^ (e + 1) := by
        refine Nat.lt_of_mul_lt_mul_left (a := 0x800000) ?_
        exact Nat.lt_of_le_of_lt h1 h
      have := (Nat.pow_lt_pow_iff_right (by omega)).1 h2
      omega
  constructor
  · rw [bitsMag_step (by decide)]
    exact Nat.add_le_add_left (Nat.pow_le_pow_right (by omega) hq) _
  · intro hb
    have := bitsMag_step (s := 0x800000) (b := b - 1) (by decide)
    rw [show b - 1 + 1 = b by omega] at this
    rw [this]
    refine Nat.add_le_add_left (Nat.pow_le_pow_right (by omega) ?_) _
    have : (b - 1) / 0x800000 ≤ b / 0x800000 := Nat.div_le_div_right (by omega)
    omega

/-- the sizes of the numbers between 0.5 and 2 -/
theorem mid_mag {b : Nat} (h1 : 0x3f000000 ≤ b) (h2 : b ≤ 0x40000000) : ∃ t, bitsMag 0x800000 b = t * 2 ^ 125 ∧
    2 ^ 23 ≤ t ∧ t ≤ 2 ^ 25 := by
  rcases Nat.lt_or_ge b 0x3f800000 with h | h
  · refine ⟨b - 125 * 0x800000, ?_, by omega, by omega⟩
    have e : b = 125 * 0x800000 + (b - 125 * 0x800000) := by omega
    conv => lhs; rw [e]
    exact bitsMag_mk (by decide) (by omega) (Or.inr (by omega))
  · refine ⟨2 * (b - 126 * 0x800000), ?_, by omega, by omega⟩
    have e : b = 126 * 0x800000 + (b - 126 * 0x800000) := by omega
    conv => lhs; rw [e]
    rw [bitsMag_mk (by decide) (by omega) (Or.inr (by omega))]
    have : (2 : Nat) ^ 126 = 2 * 2 ^ 125 := by decide
    rw [this, Nat.mul_left_comm, Nat.mul_assoc]

theorem F32.toF64_pos {x : F32} (h : x.toNat < 0x7f800000) : x.toF64 = f64OfFrac x.mag (2 ^ 149) := by
  have h1 : x.isNaN = false := by
    unfold F32.isNaN; rw [Nat.mod_eq_of_lt (by omega)]; simp only [decide_eq_false_iff_not]; omega
  have h2 : x.isInf = false := by
    unfold F32.isInf; rw [Nat.mod_eq_of_lt (by omega)]; simp only [beq_eq_false_iff_ne]; omega
  have h3 : x.isNeg = false := by
    unfold F32.isNeg; simp only [decide_eq_false_iff_not]; omega
  unfold F32.toF64
  rw [h1, h2, h3]
  simp

/-- the number as an f64 -/
theorem mid_toF64 {x : F32} {t : Nat} (hx : x.toNat ≤ 0x40000000) (ht : x.mag = t * 2 ^ 125) (ht2 : t ≤ 2 ^ 25) :
    x.toF64.mag = t * 2 ^ 1050 ∧ x.toF64.toNat < 0x7ff0000000000000 := by
  rw [F32.toF64_pos (by omega), ht]
  refine f64OfFrac_exact (Nat.two_pow_pos _) (by omega) (small_lt (by omega) (by omega)) ?_
  rw [Nat.mul_assoc, ← Nat.pow_add, Nat.mul_assoc, ← Nat.pow_add]

theorem one64' : (2 : Nat) ^ 1074 = 2 ^ 24 * 2 ^ 1050 := by rw [← Nat.pow_add]

/-- narrowing a short number -/
theorem short_toF32 {k : Nat} (hk : k ≤ 2 ^ 24) : (f32OfFrac (k * 2 ^ 1050) (2 ^ 1074)).mag = k * 2 ^ 125 ∧
    (f32OfFrac (k * 2 ^ 1050) (2 ^ 1074)).toNat ≤ 0x3f800000 := by
  have e : k * 2 ^ 1050 * 2 ^ 149 = k * 2 ^ 125 * 2 ^ 1074 := by
    rw [Nat.mul_assoc, ← Nat.pow_add, Nat.mul_assoc, ← Nat.pow_add]
  have hle : (f32OfFrac (k * 2 ^ 1050) (2 ^ 1074)).toNat ≤ 0x3f800000 := by
    rw [f32OfFrac_toNat]
    refine roundBits_le_of (by decide) (Nat.two_pow_pos _) ?_
    rw [e]
    refine Nat.mul_le_mul_right _ ?_
    have : bitsMag (2 ^ (24 - 1)) 0x3f800000 = 2 ^ 24 * 2 ^ 125 := by decide +kernel
    rw [this]
    exact Nat.mul_le_mul_right _ hk
  refine ⟨?_, hle⟩
  obtain ⟨y, hy⟩ := bitsMag_exists (s := 0x800000) (by decide) 125 k (by omega)
  have hy2 : y ≤ 0x3f800000 := by
    rcases Nat.lt_or_ge 0x3f800000 y with h | h
    · exfalso
      have h1 := bitsMag_lt (s := 0x800000) (by decide) h
      have h2 : bitsMag 0x800000 0x3f800000 = 2 ^ 24 * 2 ^ 125 := by decide +kernel
      rw [hy, h2] at h1
      have := Nat.mul_le_mul_right (2 ^ 125) hk
      omega
    · exact h
  have h1 : y ≤ (f32OfFrac (k * 2 ^ 1050) (2 ^ 1074)).toNat := by
    rw [f32OfFrac_toNat]
    refine roundBits_ge_of (by decide) (Nat.two_pow_pos _) (by omega) ?_
    rw [e]
    exact Nat.mul_le_mul_right _ (Nat.le_of_eq hy)
  have h2 : (f32OfFrac (k * 2 ^ 1050) (2 ^ 1074)).toNat ≤ y := by
    rw [f32OfFrac_toNat]
    refine roundBits_le_of (by decide) (Nat.two_pow_pos _) ?_
    rw [e]
    exact Nat.mul_le_mul_right _ (Nat.le_of_eq hy.symm)
  rw [F32.mag_pos (f32OfFrac_lt _ _), show (f32OfFrac (k * 2 ^ 1050) (2 ^ 1074)).toNat = y by omega, hy]

theorem four_split (t P : Nat) : 4 * t * P = t * (2 * P) + t * (2 * P) := by
  rw [Nat.mul_left_comm t 2 P, Nat.mul_assoc]; omega

theorem F32.abs_pos {x : F32} (h : x.toNat < 0x80000000) : x.abs = x := by
  apply UInt32.toNat_inj.1
  rw [F32.abs_toNat, Nat.mod_eq_of_lt h]

theorem recovers_of {T : FloatText} {tv : F32} {s : Str} {v : F64} (h : T.parse64 s = some v)
    (h2 : v.oneMinus.toF32 = tv) : recovers T tv s = true := by
  unfold recovers
  rw [h]
  simp [h2]

theorem bitsMag_half : bitsMag 0x800000 0x3f000000 = 2 ^ 23 * 2 ^ 125 := by decide +kernel
theorem bitsMag_one : bitsMag 0x800000 0x3f800000 = 2 ^ 24 * 2 ^ 125 := by decide +kernel
theorem bitsMag_two : bitsMag 0x800000 0x40000000 = 2 ^ 25 * 2 ^ 125 := by decide +kernel

/-- above one half and up to one -/
theorem flip_low {T : FloatText} (S : StdText T) {tv : F32} (h1 : 0x3f000000 < tv.toNat) (h2 : tv.toNat ≤ 0x3f800000) :
    recovers T tv (T.show32 tv.toF64.oneMinus.toF32) = true := by
  obtain ⟨t, ht, t1, -⟩ := mid_mag (Nat.le_of_lt h1) (by omega : tv.toNat ≤ 0x40000000)
  have hm : tv.mag = t * 2 ^ 125 := by rw [F32.mag_pos (by omega), ht]
  have t2 : t ≤ 2 ^ 24 := by
    have := bitsMag_mono (s := 0x800000) (by decide) h2
    rw [ht, bitsMag_one] at this
    exact Nat.le_of_mul_le_mul_right this (Nat.two_pow_pos _)
  have t3 : 2 ^ 23 < t := by
    have := bitsMag_lt (s := 0x800000) (by decide) h1
    rw [ht, bitsMag_half] at this
    exact Nat.lt_of_mul_lt_mul_right this
  obtain ⟨f1, f2⟩ := mid_toF64 (x := tv) (by omega) hm (by omega)
  have hr : tv.toF64.oneMinus.toF32 = f32OfFrac ((2 ^ 24 - t) * 2 ^ 1050) (2 ^ 1074) := by
    rw [F64.oneMinus_pos f2 (by rw [f1, one64']; exact Nat.mul_le_mul_right _ t2), f1, one64', ← Nat.sub_mul, ← one64']
    obtain ⟨g1, g2⟩ := f64OfFrac_exact (n := (2 ^ 24 - t) * 2 ^ 1050) (d := 2 ^ 1074) (m := 2 ^ 24 - t) (j := 1050)
      (Nat.two_pow_pos _) (by omega) (small_lt (by omega) (by omega)) rfl
    rw [F64.toF32_pos g2, g1]
  obtain ⟨s1, s2⟩ := short_toF32 (k := 2 ^ 24 - t) (by omega)
  rw [hr]
  generalize f32OfFrac ((2 ^ 24 - t) * 2 ^ 1050) (2 ^ 1074) = r at *
  have hfin : r.isFinite = true := by
    unfold F32.isFinite; rw [Nat.mod_eq_of_lt (by omega)]; simp only [decide_eq_true_eq]; omega
  obtain ⟨n, d, hd, hn, hp⟩ := S.finite r hfin
  rw [F32.abs_pos (by omega)] at hn
  have hneg : r.isNeg = false := by unfold F32.isNeg; simp only [decide_eq_false_iff_not]; omega
  have hsign : signBit r = 0 := by unfold signBit; rw [hneg]; rfl
  rw [hsign, UInt64.zero_or] at hp
  refine recovers_of hp ?_
  rw [F32.mag_pos (by omega)] at s1
  obtain ⟨u1, u2⟩ := steps (b := r.toNat) (e := 124) (by
    rw [s1]
    exact Nat.mul_lt_mul_of_pos_right (by omega) (Nat.two_pow_pos _))
  rw [s1] at u1 u2
  obtain ⟨b1, b2⟩ := near_bounds (g := 1) hd hn (by omega) s1 (by simpa using u1) (by simpa using u2)
  have e25 : (2 : Nat) ^ 125 = 2 * 2 ^ 124 := by decide
  have hstep1 := bitsMag_step (s := 0x800000) (b := tv.toNat) (by decide)
  have hstep0 := bitsMag_step (s := 0x800000) (b := tv.toNat - 1) (by decide)
  rw [show tv.toNat - 1 + 1 = tv.toNat by omega] at hstep0
  have q1 : (2 : Nat) ^ 125 ≤ 2 ^ (tv.toNat / 0x800000 - 1) := Nat.pow_le_pow_right (by omega) (by omega)
  have q0 : (2 : Nat) ^ 125 ≤ 2 ^ ((tv.toNat - 1) / 0x800000 - 1) := Nat.pow_le_pow_right (by omega) (by omega)
  refine flip_back_pos hd (by omega) b1 b2 (by omega) (by omega) ?_ ?_
  · rw [ht] at hstep0 ⊢
    generalize (2 : Nat) ^ ((tv.toNat - 1) / 0x800000 - 1) = g at *
    generalize bitsMag 0x800000 (tv.toNat - 1) = m at *
    rw [e25] at hstep0 q0 ⊢
    generalize (2 : Nat) ^ 124 = P at *
    have e1 : (2 ^ 26 - (4 * (2 ^ 24 - t) + 1)) = 4 * t - 1 := by omega
    rw [e1, Nat.sub_mul]
    have e2 : 4 * t * P = t * (2 * P) + t * (2 * P) := four_split t P
    have hP : 0 < P := Nat.pos_of_ne_zero (by rintro rfl; omega)
    omega
  · rw [hstep1, ht]
    generalize (2 : Nat) ^ (tv.toNat / 0x800000 - 1) = g at *
    rw [e25] at q1 ⊢
    have hP : 0 < (2 : Nat) ^ 124 := Nat.two_pow_pos _
    generalize (2 : Nat) ^ 124 = P at *
    have e1 : (2 ^ 26 - (4 * (2 ^ 24 - t) - 1)) ≤ 4 * t + 1 := by omega
    refine Nat.lt_of_le_of_lt (Nat.mul_le_mul_right P e1) ?_
    rw [Nat.add_mul]
    have e2 : 4 * t * P = t * (2 * P) + t * (2 * P) := four_split t P
    omega

/-- above one and up to two -/
theorem flip_high {T : FloatText} (S : StdText T) {tv : F32} (h1 : 0x3f800000 < tv.toNat) (h2 : tv.toNat ≤ 0x40000000) :
    recovers T tv (T.show32 tv.toF64.oneMinus.toF32) = true := by
  obtain ⟨t, ht, -, t2⟩ := mid_mag (by omega : 0x3f000000 ≤ tv.toNat) h2
  have hm : tv.mag = t * 2 ^ 125 := by rw [F32.mag_pos (by omega), ht]
  have t3 : 2 ^ 24 < t := by
    have := bitsMag_lt (s := 0x800000) (by decide) h1
    rw [ht, bitsMag_one] at this
    exact Nat.lt_of_mul_lt_mul_right this
  obtain ⟨f1, f2⟩ := mid_toF64 (x := tv) h2 hm (by omega)
  have hr : tv.toF64.oneMinus.toF32 = 0x80000000 ||| f32OfFrac ((t - 2 ^ 24) * 2 ^ 1050) (2 ^ 1074) := by
    rw [F64.oneMinus_big f2 (by rw [f1, one64']; exact Nat.mul_lt_mul_of_pos_right t3 (Nat.two_pow_pos _)), f1, one64',
      ← Nat.sub_mul, ← one64']
    obtain ⟨g1, g2⟩ := f64OfFrac_exact (n := (t - 2 ^ 24) * 2 ^ 1050) (d := 2 ^ 1074) (m := t - 2 ^ 24) (j := 1050)
      (Nat.two_pow_pos _) (by omega) (small_lt (by omega) (by omega)) rfl
    rw [F64.toF32_neg g2, g1]
  obtain ⟨s1, s2⟩ := short_toF32 (k := t - 2 ^ 24) (by omega)
  rw [hr]
  generalize f32OfFrac ((t - 2 ^ 24) * 2 ^ 1050) (2 ^ 1074) = r at *
  have er := f32_neg_toNat (y := r) (by omega)
  have hfin : (0x80000000 ||| r).isFinite = true := by
    unfold F32.isFinite; rw [er]; simp only [decide_eq_true_eq]; omega
  obtain ⟨n, d, hd, hn, hp⟩ := S.finite _ hfin
  have habs : (0x80000000 ||| r).abs = r := by
    apply UInt32.toNat_inj.1
    rw [F32.abs_toNat, er]; omega
  rw [habs] at hn
  have hneg : (0x80000000 ||| r).isNeg = true := by unfold F32.isNeg; rw [er]; simp
  have hsign : signBit (0x80000000 ||| r) = 0x8000000000000000 := by unfold signBit; rw [hneg]; rfl
  rw [hsign] at hp
  refine recovers_of hp ?_
  rw [F32.mag_pos (by omega)] at s1
  have hstep1 := bitsMag_step (s := 0x800000) (b := tv.toNat) (by decide)
  have hstep0 := bitsMag_step (s := 0x800000) (b := tv.toNat - 1) (by decide)
  rw [show tv.toNat - 1 + 1 = tv.toNat by omega] at hstep0
  have q1 : (2 : Nat) ^ 126 ≤ 2 ^ (tv.toNat / 0x800000 - 1) := Nat.pow_le_pow_right (by omega) (by omega)
  have q0 : (2 : Nat) ^ 126 ≤ 2 ^ ((tv.toNat - 1) / 0x800000 - 1) := Nat.pow_le_pow_right (by omega) (by omega)
  have e26 : (2 : Nat) ^ 126 = 4 * 2 ^ 124 := by decide
  have e25 : (2 : Nat) ^ 125 = 2 * 2 ^ 124 := by decide
  rcases Nat.lt_or_ge t (2 ^ 25) with hlt | hge
  · obtain ⟨u1, u2⟩ := steps (b := r.toNat) (e := 125) (by
      rw [s1]
      have : (2 : Nat) ^ 23 * 2 ^ (125 + 1) = 2 ^ 24 * 2 ^ 125 := by decide
      rw [this]
      exact Nat.mul_lt_mul_of_pos_right (by omega) (Nat.two_pow_pos _))
    rw [s1] at u1 u2
    obtain ⟨b1, b2⟩ := near_bounds (g := 2) hd hn (by omega) s1 (by rw [← e25]; exact u1) (by rw [← e25]; exact u2)
    refine flip_back_neg hd (by omega) b1 b2 (by omega) (by omega) ?_ ?_
    · rw [ht] at hstep0 ⊢
      generalize (2 : Nat) ^ ((tv.toNat - 1) / 0x800000 - 1) = g at *
      generalize bitsMag 0x800000 (tv.toNat - 1) = m at *
      rw [e25] at hstep0 ⊢
      rw [e26] at q0
      have hP : 0 < (2 : Nat) ^ 124 := Nat.two_pow_pos _
      generalize (2 : Nat) ^ 124 = P at *
      have e1 : (2 ^ 26 + (4 * (t - 2 ^ 24) - 2)) = 4 * t - 2 := by omega
      rw [e1, Nat.sub_mul]
      have e2 : 4 * t * P = t * (2 * P) + t * (2 * P) := four_split t P
      omega
    · rw [hstep1, ht]
      generalize (2 : Nat) ^ (tv.toNat / 0x800000 - 1) = g at *
      rw [e25]
      rw [e26] at q1
      have hP : 0 < (2 : Nat) ^ 124 := Nat.two_pow_pos _
      generalize (2 : Nat) ^ 124 = P at *
      have e1 : (2 ^ 26 + (4 * (t - 2 ^ 24) + 2)) = 4 * t + 2 := by omega
      rw [e1, Nat.add_mul]
      have e2 : 4 * t * P = t * (2 * P) + t * (2 * P) := four_split t P
      omega
  · have htt : t = 2 ^ 25 := by omega
    subst htt
    have hr1 : r.toNat = 0x3f800000 := bitsMag_inj (s := 0x800000) (by decide) (by rw [s1, bitsMag_one])
    have htv : tv.toNat = 0x40000000 := bitsMag_inj (s := 0x800000) (by decide) (by rw [ht, bitsMag_two])
    obtain ⟨l, u⟩ := f32OfFrac_mid hd hn (by omega)
    have l := l (by omega)
    rw [hr1] at l u
    have e1 : bitsMag 0x800000 (0x3f800000 - 1) + bitsMag 0x800000 0x3f800000 = (2 ^ 26 - 2) * 2 ^ 124 := by decide +kernel
    have e2 : bitsMag 0x800000 0x3f800000 + bitsMag 0x800000 (0x3f800000 + 1) = (2 ^ 26 + 4) * 2 ^ 124 := by decide +kernel
    rw [e1] at l
    rw [e2] at u
    have e : 2 * (n * 2 ^ 149) = n * 2 ^ 26 * 2 ^ 124 := by
      rw [Nat.mul_assoc n, ← Nat.pow_add, Nat.mul_comm 2, Nat.mul_assoc, ← Nat.pow_succ]
    rw [e, Nat.mul_right_comm] at l
    rw [e, Nat.mul_right_comm (2 ^ 26 + 4)] at u
    have b1 := Nat.le_of_mul_le_mul_right l (Nat.two_pow_pos _)
    have b2 := Nat.le_of_mul_le_mul_right u (Nat.two_pow_pos _)
    refine flip_back_neg hd (by omega) b1 b2 (by decide) (by decide) ?_ ?_
    · rw [htv]; decide +kernel
    · rw [htv]; decide +kernel

/-- the whole range that is not checked by the program -/
theorem flip_mid {T : FloatText} (S : StdText T) {tv : F32} (h1 : 0x3f000000 ≤ tv) (h2 : tv ≤ 0x40000000) :
    recovers T tv (T.show32 tv.toF64.oneMinus.toF32) = true := by
  have h1 : 0x3f000000 ≤ tv.toNat := UInt32.le_iff_toNat_le.1 h1
  have h2 : tv.toNat ≤ 0x40000000 := UInt32.le_iff_toNat_le.1 h2
  rcases Nat.eq_or_lt_of_le h1 with h | h
  · have : tv = 0x3f000000 := UInt32.toNat_inj.1 h.symm
    subst this
    have e : (F32.toF64 0x3f000000).oneMinus.toF32 = 0x3f000000 := by decide +kernel
    rw [e]
    refine recovers_of S.half ?_
    decide +kernel
  · rcases Nat.lt_or_ge 0x3f800000 tv.toNat with h3 | h3
    · exact flip_high S h3 h2
    · exact flip_low S h h3

/-- what is found by the search recovers the number -/
theorem shortest_recovers {T : FloatText} {fl : F64} {tv : F32} {t : Str} (ht : shortestRecovering T fl tv = some t) :
    recovers T tv t = true := by
  have hp : ∀ p s, (if recovers T tv (T.showPrec p fl) then some (T.showPrec p fl) else none) = some s →
      recovers T tv s = true := by
    intro p s h
    split at h
    · next h2 => cases h; exact h2
    · cases h
  unfold shortestRecovering at ht
  dsimp only at ht
  have hw : ∀ n u, recovers T tv u = true → recovers T tv
      (walkDown (fun p => if recovers T tv (T.showPrec p fl) then some (T.showPrec p fl) else none) n u) = true := by
    intro n
    induction n with
    | zero => intro u hu; exact hu
    | succ n ih =>
      intro u hu
      cases n with
      | zero => exact hu
      | succ n =>
        unfold walkDown
        split
        · next s hs => exact ih s (hp _ _ hs)
        · exact hu
  split at ht
  · next u hu => cases ht; exact hw _ _ (hp _ _ hu)
  · obtain ⟨p, -, h2⟩ := List.exists_of_findSome?_eq_some ht
    exact hp _ _ h2

/-- what is said to be exact is exact -/
theorem flippedV_exact {T : FloatText} (S : StdText T) {tv : F32} (h : (flippedV T tv).2 = true) :
    recovers T tv (flippedV T tv).1 = true := by
  unfold flippedV at h ⊢
  dsimp only at h ⊢
  split
  · next hn => rw [if_pos hn] at h; cases h
  · next hn =>
    rw [if_neg hn] at h
    split
    · next hr => exact flip_mid S hr.1 hr.2
    · next hr =>
      rw [if_neg hr] at h
      split
      · next h2 => exact h2
      · next h2 =>
        rw [if_neg h2] at h
        split
        · next t ht => exact shortest_recovers ht
        · next ht => rw [ht] at h; cases h

/-! ### Reading as f64 and rounding to f32 -/

theorem bitsMag_form (b : Nat) : ∃ m, m ≤ 2 ^ 24 ∧ bitsMag 0x800000 b = m * 2 ^ (b / 0x800000 - 1) := by
  unfold bitsMag
  split
  · next h => exact ⟨b % 0x800000, by omega, by rw [h]; simp⟩
  · exact ⟨0x800000 + b % 0x800000, by omega, rfl⟩

theorem mid_form {b : Nat} (hb : b < 0x80000000) : ∃ m j, m ≤ 2 ^ 53 ∧ m * 2 ^ j < 2 ^ 2098 ∧
    (bitsMag 0x800000 b + bitsMag 0x800000 (b + 1)) * 2 ^ 924 = m * 2 ^ j := by
  obtain ⟨m, hm, h⟩ := bitsMag_form b
  refine ⟨2 * m + 1, b / 0x800000 - 1 + 924, by omega, small_lt (by omega) (by omega), ?_⟩
  rw [bitsMag_step (by decide), h, Nat.pow_add, ← Nat.mul_assoc]
  congr 1
  rw [Nat.add_mul, Nat.one_mul, Nat.mul_assoc 2]; omega

theorem F32.mag_ofNat {b : Nat} (h : b < 0x80000000) : F32.mag (UInt32.ofNat b) = bitsMag 0x800000 b := by
  have e : (UInt32.ofNat b).toNat = b := by simp; omega
  rw [F32.mag_pos (by rw [e]; exact h), e]

theorem midway_intro {v : F64} {b : Nat} (hb : b < 0x7f800000)
    (h : v.mag = (bitsMag 0x800000 b + bitsMag 0x800000 (b + 1)) * 2 ^ 924) : Midway v := by
  refine ⟨UInt32.ofNat b, UInt32.ofNat (b + 1), ?_, ?_, ?_⟩
  · simp; omega
  · simp; omega
  · rw [F32.mag_ofNat (by omega), F32.mag_ofNat (by omega), h, Nat.mul_comm 2, Nat.mul_assoc, ← Nat.pow_succ]

/-- the second rounding does no harm unless the f64 is exactly midway -/
theorem toF32_not_midway {n d : Nat} {y : F32} (hd : 0 < d) (h : f32OfFrac n d = y) (hy : y.toNat < 0x7f800000)
    (hm : ¬ Midway (f64OfFrac n d)) :
    (f64OfFrac n d).toNat < 0x7ff0000000000000 ∧ f32OfFrac (f64OfFrac n d).mag (2 ^ 1074) = y := by
  obtain ⟨l, u⟩ := f32OfFrac_mid hd h hy
  have e : n * 2 ^ 1074 = 2 * (n * 2 ^ 149) * 2 ^ 924 := by
    rw [Nat.mul_comm 2, Nat.mul_assoc n, ← Nat.pow_succ, Nat.mul_assoc, ← Nat.pow_add]
  have e2 : ∀ k, k * 2 ^ 924 * 2 ^ 149 * 2 = k * 2 ^ 1074 := by
    intro k
    rw [Nat.mul_assoc k, ← Nat.pow_add, Nat.mul_assoc, ← Nat.pow_succ]
  obtain ⟨m1, j1, p1, p2, p3⟩ := mid_form (b := y.toNat) (by omega)
  obtain ⟨up, ui⟩ := f64OfFrac_mag_le (n := n) hd p1 p2 (by
    rw [← p3, e, Nat.mul_right_comm _ _ d]
    exact Nat.mul_le_mul_right _ u)
  rw [← p3] at up
  refine ⟨ui, f32OfFrac_of_mid (Nat.two_pow_pos _) (by omega) ?_ ?_⟩
  · intro h0
    have l := l h0
    obtain ⟨m2, j2, r1, r2, r3⟩ := mid_form (b := y.toNat - 1) (by omega)
    rw [show y.toNat - 1 + 1 = y.toNat by omega] at r3
    have lo := f64OfFrac_mag_ge (n := n) hd r1 r2 (by
      rw [← r3, e, Nat.mul_right_comm _ _ d]
      exact Nat.mul_le_mul_right _ l)
    rw [← r3] at lo
    rcases Nat.eq_or_lt_of_le lo with heq | hlt
    · exact absurd (midway_intro (b := y.toNat - 1) (by omega) (by
        rw [show y.toNat - 1 + 1 = y.toNat by omega]; exact heq.symm)) hm
    · rw [← e2, Nat.mul_comm 2]
      exact Nat.mul_lt_mul_of_pos_right (Nat.mul_lt_mul_of_pos_right hlt (Nat.two_pow_pos _)) (by decide)
  · rcases Nat.eq_or_lt_of_le up with heq | hlt
    · exact absurd (midway_intro hy heq) hm
    · rw [← e2, Nat.mul_comm 2]
      exact Nat.mul_lt_mul_of_pos_right (Nat.mul_lt_mul_of_pos_right hlt (Nat.two_pow_pos _)) (by decide)

theorem textExact_finite {T : FloatText} (S : StdText T) {x : F32} (hx : x.isFinite = true) {v : F64}
    (hv : T.parse64 (T.show32 x) = some v) (hm : ¬ Midway v) : TextExact T x := by
  obtain ⟨n, d, hd, h, hp⟩ := S.finite x hx
  have habs : x.abs.toNat < 0x7f800000 := by
    rw [F32.abs_toNat]
    unfold F32.isFinite at hx
    exact of_decide_eq_true hx
  rw [hp] at hv
  cases hv
  have hlt := f64OfFrac_lt n d
  cases hneg : x.isNeg with
  | false =>
    have hsign : signBit x = 0 := by unfold signBit; rw [hneg]; rfl
    rw [hsign, UInt64.zero_or] at hp hm
    obtain ⟨i, r⟩ := toF32_not_midway hd h habs hm
    refine ⟨_, hp, ?_⟩
    rw [F64.toF32_pos i, r]
    apply F32.abs_pos
    unfold F32.isNeg at hneg
    have := of_decide_eq_false hneg
    omega
  | true =>
    have hsign : signBit x = 0x8000000000000000 := by unfold signBit; rw [hneg]; rfl
    rw [hsign] at hp hm
    have hm' : ¬ Midway (f64OfFrac n d) := by
      rintro ⟨a, b, h1, h2, h3⟩
      refine hm ⟨a, b, h1, h2, ?_⟩
      have : (0x8000000000000000 ||| f64OfFrac n d).mag = (f64OfFrac n d).mag := by
        rw [F64.mag_eq, F64.mag_eq, f64_neg_toNat hlt]
        congr 1; omega
      rw [this]; exact h3
    obtain ⟨i, r⟩ := toF32_not_midway hd h habs hm'
    refine ⟨_, hp, ?_⟩
    rw [F64.toF32_neg i, r]
    apply UInt32.toNat_inj.1
    rw [f32_neg_toNat (by omega), F32.abs_toNat]
    unfold F32.isNeg at hneg
    have := of_decide_eq_true hneg
    have := x.toNat_lt
    omega

end Vpin
