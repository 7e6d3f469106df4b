import Verif.Model.Quantize
/-! Helper lemmas about quantisation. -/
namespace Vpin

theorem roundDiv_ge (n d : Nat) : n / d ≤ roundDiv n d := by
  unfold roundDiv; split
  · exact Nat.le_refl _
  · split <;> omega

/-- a fraction of at least `2 ^ k` has a bit pattern of at least that of `2 ^ k` -/
theorem roundBits_ge {p q inf n d k : Nat} (hd : 0 < d) (h : d * 2 ^ k ≤ n) (hp : p ≤ q + k + 1)
    (hp0 : 0 < p) (hinf : (q + k + 2 - p) * 2 ^ (p - 1) ≤ inf) :
    (q + k + 2 - p) * 2 ^ (p - 1) ≤ roundBits p q inf n d := by
  unfold roundBits
  generalize ha : n * 2 ^ q = a
  have hle : d * 2 ^ (q + k) ≤ a := by
    rw [← ha, Nat.pow_add, Nat.mul_comm (2 ^ q), ← Nat.mul_assoc]
    exact Nat.mul_le_mul_right _ h
  have hdiv : 2 ^ (q + k) ≤ a / d := by
    rw [Nat.le_div_iff_mul_le hd, Nat.mul_comm]; exact hle
  have hne : a / d ≠ 0 := by have := Nat.two_pow_pos (q + k); omega
  have hl : q + k ≤ Nat.log2 (a / d) := (Nat.le_log2 hne).2 hdiv
  have hself : 2 ^ Nat.log2 (a / d) ≤ a / d := Nat.log2_self_le hne
  show _ ≤ min inf ((Nat.log2 (a / d) + 1 - p) * 2 ^ (p - 1)
    + roundDiv a (d * 2 ^ (Nat.log2 (a / d) + 1 - p)))
  generalize Nat.log2 (a / d) = l at hl hself ⊢
  have hq : 2 ^ (p - 1) ≤ roundDiv a (d * 2 ^ (l + 1 - p)) := by
    refine Nat.le_trans ?_ (roundDiv_ge _ _)
    rw [Nat.le_div_iff_mul_le (Nat.mul_pos hd (Nat.two_pow_pos _)),
      ← Nat.mul_assoc, Nat.mul_comm _ d, Nat.mul_assoc, ← Nat.pow_add]
    have : p - 1 + (l + 1 - p) = l := by omega
    rw [this, Nat.mul_comm]
    exact Nat.le_trans (Nat.mul_le_mul_right d hself) (Nat.div_mul_le_self a d)
  have hmul : (q + k + 1 - p) * 2 ^ (p - 1) ≤ (l + 1 - p) * 2 ^ (p - 1) :=
    Nat.mul_le_mul_right _ (by omega)
  have hsucc : (q + k + 2 - p) * 2 ^ (p - 1) = (q + k + 1 - p) * 2 ^ (p - 1) + 2 ^ (p - 1) := by
    have : q + k + 2 - p = (q + k + 1 - p) + 1 := by omega
    rw [this, Nat.succ_mul]
  rw [Nat.le_min]
  exact ⟨hinf, by omega⟩

theorem roundBits_le {p q inf n d : Nat} : roundBits p q inf n d ≤ inf := Nat.min_le_left _ _

theorem f32OfFrac_toNat (n d : Nat) :
    (f32OfFrac n d).toNat = roundBits 24 149 0x7f800000 n d := by
  have := @roundBits_le 24 149 0x7f800000 n d
  simp [f32OfFrac, UInt32.toNat_ofNat']; omega

theorem f64OfFrac_toNat (n d : Nat) :
    (f64OfFrac n d).toNat = roundBits 53 1074 0x7ff0000000000000 n d := by
  have := @roundBits_le 53 1074 0x7ff0000000000000 n d
  simp [f64OfFrac, UInt64.toNat_ofNat']; omega

theorem F32.mag_ge {x : F32} {e : Nat} (h1 : (e + 1) * 0x800000 ≤ x.toNat) (h2 : x.toNat < 0x80000000) :
    0x800000 * 2 ^ e ≤ x.mag := by
  unfold F32.mag
  rw [Nat.mod_eq_of_lt h2]
  have : e + 1 ≤ x.toNat / 0x800000 := by omega
  rw [if_neg (by omega)]
  refine Nat.mul_le_mul (by omega) (Nat.pow_le_pow_right (by omega) (by omega))

theorem F64.mag_ge {x : F64} {e : Nat} (h1 : (e + 1) * 0x10000000000000 ≤ x.toNat)
    (h2 : x.toNat < 0x8000000000000000) : 0x10000000000000 * 2 ^ e ≤ x.mag := by
  unfold F64.mag
  rw [Nat.mod_eq_of_lt h2]
  have : e + 1 ≤ x.toNat / 0x10000000000000 := by omega
  rw [if_neg (by omega)]
  refine Nat.mul_le_mul (by omega) (Nat.pow_le_pow_right (by omega) (by omega))

/-- every index above 255 reads as 1.0 -/
theorem dequantize8_big {i : UInt32} (h : 256 ≤ i.toNat) : dequantize8 i = f32One := by
  have hf : 135 * 2 ^ 23 ≤ (u32ToF32 i).toNat := by
    unfold u32ToF32; rw [f32OfFrac_toNat]
    exact roundBits_ge (p := 24) (q := 149) (k := 8) (by decide) (by omega) (by decide) (by decide)
      (by decide)
  have hm : 2 ^ 157 ≤ (u32ToF32 i).mag := by
    have := F32.mag_ge (x := u32ToF32 i) (e := 134) (by omega) (by
      unfold u32ToF32; rw [f32OfFrac_toNat]
      have := @roundBits_le 24 149 0x7f800000 i.toNat 1
      omega)
    exact Nat.le_trans (by decide) this
  have hq : 0x3ff0000000000000 ≤ (f64OfFrac (u32ToF32 i).mag (2 ^ 149 * 255)).toNat := by
    rw [f64OfFrac_toNat]
    refine Nat.le_trans ?_ (roundBits_ge (p := 53) (q := 1074) (k := 0) (by decide)
      (Nat.le_trans ?_ hm) (by decide) (by decide) (by decide))
    · decide
    · decide
  have hqm : 2 ^ 1074 ≤ (f64OfFrac (u32ToF32 i).mag (2 ^ 149 * 255)).mag := by
    refine Nat.le_trans ?_ (F64.mag_ge (e := 1022) (Nat.le_trans (by decide) hq) ?_)
    · decide +kernel
    · rw [f64OfFrac_toNat]
      have := @roundBits_le 53 1074 0x7ff0000000000000 (u32ToF32 i).mag (2 ^ 149 * 255)
      omega
  have hr : 0x3f800000 ≤ (preciseDivide (u32ToF32 i) 255).toNat := by
    unfold preciseDivide
    rw [f32OfFrac_toNat]
    exact roundBits_ge (p := 24) (q := 149) (k := 0) (Nat.two_pow_pos _)
      (by rw [Nat.pow_zero, Nat.mul_one]; exact hqm) (by decide) (by decide) (by decide)
  unfold dequantize8 f32MinPos
  split
  · next hle =>
    apply UInt32.toNat_inj.1
    have : (preciseDivide (u32ToF32 i) 255).toNat ≤ f32One.toNat := hle
    have h1 : f32One.toNat = 0x3f800000 := rfl
    omega
  · rfl

theorem dequantize8_table : ∀ i : Fin 256,
    quantize8 (dequantize8 (UInt32.ofNat i.val)) = .ok (UInt32.ofNat i.val) := by
  decide +kernel

theorem quantize8_dequantize8 {i : UInt32} (h : i.toNat < 256) : quantize8 (dequantize8 i) = .ok i := by
  have := dequantize8_table ⟨i.toNat, h⟩
  simpa using this

/-- every value read from a file is one of the 256 levels -/
theorem dequantize8_level (i : UInt32) : ∃ j : UInt32, j.toNat < 256 ∧ dequantize8 i = dequantize8 j := by
  by_cases h : i.toNat < 256
  · exact ⟨i, h, rfl⟩
  · refine ⟨255, by decide, ?_⟩
    rw [dequantize8_big (by omega)]
    decide +kernel

end Vpin
