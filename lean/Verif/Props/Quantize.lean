import Verif.Lemmas.QuantizeMono
/-!
C31: quantised floats. The value of a finite float is `±mag * 2^-149` (`F32.mag`).
-/
namespace Vpin

theorem dequantize8_eq (i : UInt32) : dequantize8 i = dequantizeUnsigned 8 i := by
  unfold dequantize8; rfl

theorem quantize8_eq (x : F32) : quantize8 x = quantizeUnsigned 8 x := by
  have h : f32OfFrac 255 1 = 0x437f0000 := by decide +kernel
  unfold quantize8 quantizeUnsigned quantizeN F32.abs
  simp only [show 2 ^ 8 - 1 = 255 from rfl, show 2 ^ 8 = 256 from rfl, h]

/-- **C31.** A stored 8-bit value converts to a float and back to the same value. -/
theorem C31_stored_roundtrip (i : UInt32) (h : i < 256) :
    quantizeUnsigned 8 (dequantizeUnsigned 8 i) = .ok i := by
  rw [← dequantize8_eq, ← quantize8_eq]; exact quantize8_dequantize8 h

/-- **C31.** The same for the `u8` functions with 8 bits (ball trail strength) … -/
theorem C31_u8_roundtrip (i : UInt8) : quantizeU8 8 (dequantizeU8 8 i) = .ok i := by
  have h : i.toUInt32.toNat < 256 := by
    have := i.toNat_lt
    simpa using this
  have := C31_stored_roundtrip i.toUInt32 h
  unfold quantizeU8 dequantizeU8
  unfold quantizeUnsigned dequantizeUnsigned at this
  rw [this]
  simp [bind, Except.bind, pure, Except.pure]
  apply UInt8.toNat_inj.1
  have := i.toNat_lt
  simp; omega

theorem u7_table : ∀ i : Fin 128,
    quantizeU8 7 (dequantizeU8 7 (UInt8.ofNat i.val)) = .ok (UInt8.ofNat i.val) := by decide +kernel

/-- **C31.** … and with 7 bits (edge alpha of a material). -/
theorem C31_u7_roundtrip (i : UInt8) (h : i < 128) : quantizeU8 7 (dequantizeU8 7 i) = .ok i := by
  have := u7_table ⟨i.toNat, h⟩
  simpa using this

theorem percent_table : ∀ i : Fin 101,
    quantizePercent (dequantizePercent (UInt32.ofNat i.val)) = .ok (UInt32.ofNat i.val) := by
  decide +kernel

/-- **C31.** A percentage converts to a float and back to the same percentage. -/
theorem C31_percent_roundtrip (i : UInt32) (h : i ≤ 100) :
    quantizePercent (dequantizePercent i) = .ok i := by
  have := percent_table ⟨i.toNat, Nat.lt_succ_of_le h⟩
  simpa using this

example : quantizeUnsigned 8 (dequantizeUnsigned 8 128) = .ok 128 := C31_stored_roundtrip 128 (by decide)
example : quantizePercent (dequantizePercent 57) = .ok 57 := C31_percent_roundtrip 57 (by decide)

/-- in the interval [0, 1]: a number, not negative, of magnitude at most 2^149 * 2^-149 -/
def F32.InUnit (x : F32) : Prop := x.isFinite = true ∧ x.isNeg = false ∧ x.mag ≤ 2 ^ 149

theorem inUnit_of_le {x : F32} (h : x ≤ f32One) : x.InUnit := by
  have h' : x.toNat ≤ 0x3f800000 := h
  refine ⟨?_, ?_, ?_⟩
  · unfold F32.isFinite; simp; omega
  · unfold F32.isNeg; simp; omega
  · refine Nat.le_trans (F32.mag_mono (y := f32One) (by decide) h) ?_
    decide

/-- **C31.** Whatever 32-bit value a file holds, the number read is between 0 and 1, for every
width and for percentages. -/
theorem C31_read_in_range (bits : Nat) (i : UInt32) :
    (dequantizeUnsigned bits i).InUnit ∧ (dequantizePercent i).InUnit :=
  ⟨inUnit_of_le (dequantizeN_le_one _ i), inUnit_of_le (dequantizeN_le_one _ i)⟩

theorem inUnit_mag_mono {x y : F32} (hy : y.InUnit) (h : x ≤ y) : x.mag ≤ y.mag := by
  refine F32.mag_mono ?_ h
  have := hy.2.1
  unfold F32.isNeg at this
  simp at this; omega

/-- **C31.** A larger stored value is read as a larger or equal number. -/
theorem C31_read_monotone (bits : Nat) (hb : 0 < bits) (i j : UInt32) (h : i ≤ j) :
    (dequantizeUnsigned bits i).mag ≤ (dequantizeUnsigned bits j).mag
      ∧ (dequantizePercent i).mag ≤ (dequantizePercent j).mag := by
  have hn : 0 < 2 ^ bits - 1 := by
    have : 2 ^ 1 ≤ 2 ^ bits := Nat.pow_le_pow_right (by omega) hb
    omega
  exact ⟨inUnit_mag_mono (C31_read_in_range bits j).1 (dequantizeN_mono hn h),
    inUnit_mag_mono (C31_read_in_range bits j).2 (dequantizeN_mono (by decide) h)⟩

/-- **C31.** The conversion for storing panics exactly on numbers that are not `>= 0`. -/
theorem C31_store_rejects (n np1 : Nat) (x : F32) :
    quantizeN n np1 x = .error .panic ↔ x.isNaN = true ∨ (x.isNeg = true ∧ x.mag ≠ 0) := by
  unfold quantizeN F32.ge0
  cases x.isNaN <;> cases x.isNeg <;> simp

theorem quantizeN_ok {n np1 : Nat} {x : F32} (h : x.ge0 = true) : quantizeN n np1 x = .ok (f32ToU32
    (f32MinPos (f32Scale x.abs np1) (f32OfFrac n 1))) := by
  unfold quantizeN; rw [if_pos h]

theorem abs_mag (x : F32) : x.abs.mag = x.mag := by
  unfold F32.mag
  rw [F32.abs_toNat, Nat.mod_mod]

theorem cap {n : Nat} (h : n < 2 ^ 24) : n * 2 ^ 149 < 2 ^ 277 := by
  have h1 : n * 2 ^ 149 < 2 ^ 24 * 2 ^ 149 := Nat.mul_lt_mul_of_pos_right h (Nat.two_pow_pos _)
  have h2 : 2 ^ 24 * 2 ^ 149 = 2 ^ 173 := (Nat.pow_add 2 24 149).symm
  have h3 : 2 ^ 173 ≤ 2 ^ 277 := Nat.pow_le_pow_right (by decide) (by decide)
  exact Nat.lt_of_lt_of_le h1 (h2 ▸ h3)

theorem ofNat_exact {n : Nat} (h : n < 2 ^ 24) : (f32OfFrac n 1).mag = n * 2 ^ 149 := by
  refine f32OfFrac_exact (v := n * 2 ^ 149) (m := n) (j := 149) (by decide) (Nat.mul_one _).symm rfl h (cap h)

theorem toU32_ofNat {n : Nat} (h : n < 2 ^ 24) : f32ToU32 (f32OfFrac n 1) = UInt32.ofNat n := by
  have hf : (f32OfFrac n 1).isFinite = true := by
    have h1 := f32OfFrac_mono (n := n) (n' := 2 ^ 24) (d := 1) (by decide) (by omega)
    have h2 : (f32OfFrac (2 ^ 24) 1).toNat = 0x4b800000 := by decide +kernel
    unfold F32.isFinite
    rw [Nat.mod_eq_of_lt (f32OfFrac_lt _ _)]
    simp; omega
  unfold f32ToU32
  rw [if_pos hf, ofNat_exact h, Nat.mul_div_cancel _ (Nat.two_pow_pos _)]
  congr 1; omega

theorem finite_mag_form (x : F32) :
    ∃ m j, x.mag = m * 2 ^ j ∧ m < 2 ^ 24 := by
  unfold F32.mag
  simp only
  split
  · exact ⟨x.toNat % 0x80000000 % 0x800000, 0, by simp, by omega⟩
  · exact ⟨0x800000 + x.toNat % 0x80000000 % 0x800000, _, rfl, by omega⟩

/-- **C31.** What is stored: `x` scaled by `2 ^ bits`, rounded down, and at most
`2 ^ bits - 1`. There is no rounding error, since scaling by a power of two is exact. -/
theorem C31_store_value (bits : Nat) (hb : bits ≤ 24) (x : F32) (hx : x.ge0 = true)
    (hfin : x.isFinite = true) :
    quantizeUnsigned bits x = .ok (UInt32.ofNat (min (2 ^ bits - 1) (x.mag * 2 ^ bits / 2 ^ 149))) := by
  unfold quantizeUnsigned
  rw [quantizeN_ok hx]
  congr 1
  have hpow : 2 ^ bits ≤ 2 ^ 24 := Nat.pow_le_pow_right (by decide) hb
  have hpos := Nat.two_pow_pos bits
  have hn : 2 ^ bits - 1 < 2 ^ 24 := by omega
  have hfin' : x.abs.isFinite = true := by
    unfold F32.isFinite at hfin ⊢
    rw [F32.abs_toNat, Nat.mod_mod]; exact hfin
  have hsc : f32Scale x.abs (2 ^ bits)
      = f32OfFrac (x.mag * 2 ^ bits) (2 ^ 149) := by
    unfold f32Scale; rw [if_pos hfin', abs_mag]
  rw [hsc]
  have hnE := ofNat_exact hn
  obtain ⟨m, j, hmj, hm⟩ := finite_mag_form x
  have p149 : 0 < 2 ^ 149 := Nat.two_pow_pos 149
  generalize hN : 2 ^ bits - 1 = N at *
  rcases Nat.lt_or_ge (x.mag * 2 ^ bits) (N * 2 ^ 149) with hlt | hge
  · have hlt' : x.mag * 2 ^ bits < 2 ^ 277 := Nat.lt_trans hlt (cap hn)
    have hex : (f32OfFrac (x.mag * 2 ^ bits) (2 ^ 149)).mag = x.mag * 2 ^ bits :=
      f32OfFrac_exact (m := m) (j := j + bits) p149 rfl (by rw [hmj, Nat.pow_add, Nat.mul_assoc])
        hm hlt'
    have hmin : f32MinPos (f32OfFrac (x.mag * 2 ^ bits) (2 ^ 149)) (f32OfFrac N 1)
        = f32OfFrac (x.mag * 2 ^ bits) (2 ^ 149) := by
      unfold f32MinPos
      rw [if_pos]
      exact F32.le_of_mag_le (f32OfFrac_lt _ _) (f32OfFrac_lt _ _) (by rw [hex, hnE]; omega)
    have hq : x.mag * 2 ^ bits / 2 ^ 149 < N := (Nat.div_lt_iff_lt_mul p149).2 hlt
    rw [hmin]
    unfold f32ToU32
    have hfin2 : (f32OfFrac (x.mag * 2 ^ bits) (2 ^ 149)).isFinite = true := by
      have h1 : (f32OfFrac (x.mag * 2 ^ bits) (2 ^ 149)).toNat ≤ (f32OfFrac N 1).toNat :=
        F32.le_of_mag_le (f32OfFrac_lt _ _) (f32OfFrac_lt _ _) (by rw [hex, hnE]; omega)
      have h3 := f32OfFrac_mono (n := N) (n' := 2 ^ 24) (d := 1) (by decide) (by omega)
      have h2 : (f32OfFrac (2 ^ 24) 1).toNat = 0x4b800000 := by decide +kernel
      unfold F32.isFinite
      rw [Nat.mod_eq_of_lt (f32OfFrac_lt _ _)]
      rw [h2] at h3
      generalize (f32OfFrac (x.mag * 2 ^ bits) (2 ^ 149)).toNat = u at *
      simp; omega
    rw [if_pos hfin2, hex]
    generalize x.mag * 2 ^ bits / 2 ^ 149 = u at *
    congr 1; omega
  · have hge2 : (f32OfFrac N 1).toNat ≤ (f32OfFrac (x.mag * 2 ^ bits) (2 ^ 149)).toNat := by
      refine Nat.le_trans ?_ (f32OfFrac_mono p149 hge)
      refine F32.le_of_mag_le (f32OfFrac_lt _ _) (f32OfFrac_lt _ _) ?_
      rw [hnE]
      refine Nat.le_of_eq (f32OfFrac_exact (n := N * 2 ^ 149) (d := 2 ^ 149) (v := N * 2 ^ 149) (m := N) (j := 149) p149
        (Eq.refl _) (Eq.refl _) hn (cap hn)).symm
    have hmin : f32MinPos (f32OfFrac (x.mag * 2 ^ bits) (2 ^ 149)) (f32OfFrac N 1) = f32OfFrac N 1 := by
      apply UInt32.toNat_inj.1
      rw [f32MinPos_toNat]; exact Nat.min_eq_right hge2
    have hq : N ≤ x.mag * 2 ^ bits / 2 ^ 149 := (Nat.le_div_iff_mul_le p149).2 hge
    rw [hmin, toU32_ofNat hn]
    generalize x.mag * 2 ^ bits / 2 ^ 149 = u at *
    congr 1; omega

/-- 0.7 is stored as 179 -/
example : quantizeUnsigned 8 0x3f333333 = .ok 179 :=
  (C31_store_value 8 (by decide) 0x3f333333 (by decide) (by decide)).trans (by decide +kernel)

/-- **C31.** Storing is monotone, for 1 to 24 bits and for percentages, on all numbers `>= 0`
including infinity. -/
theorem C31_store_monotone (n np1 : Nat) (x y : F32) (hx : x.ge0 = true) (hy : y.ge0 = true)
    (h : x.toNat % 0x80000000 ≤ y.toNat % 0x80000000) :
    ∃ a b, quantizeN n np1 x = .ok a ∧ quantizeN n np1 y = .ok b ∧ a ≤ b := by
  refine ⟨_, _, quantizeN_ok hx, quantizeN_ok hy, ?_⟩
  have hya := ge0_abs hy
  have h1 := f32Scale_mono (k := np1) (x := x.abs) hya (by rw [F32.abs_toNat, F32.abs_toNat]; exact h)
  have h2 := f32Scale_le_inf (k := np1) hya
  refine f32ToU32_mono ?_ ?_
  · rw [f32MinPos_toNat]; omega
  · rw [f32MinPos_toNat, f32MinPos_toNat]; omega

/-- the same in terms of values, for finite numbers -/
theorem C31_store_monotone_value (n np1 : Nat) (x y : F32) (hx : x.ge0 = true) (hy : y.ge0 = true)
    (h : x.mag ≤ y.mag) :
    ∃ a b, quantizeN n np1 x = .ok a ∧ quantizeN n np1 y = .ok b ∧ a ≤ b := by
  refine C31_store_monotone n np1 x y hx hy ?_
  rw [← abs_mag x, ← abs_mag y] at h
  have := F32.le_of_mag_le (x := x.abs) (y := y.abs) (by rw [F32.abs_toNat]; omega)
    (by rw [F32.abs_toNat]; omega) h
  rwa [F32.abs_toNat, F32.abs_toNat] at this

/-- **C31.** The value stored never exceeds the largest one of the width. -/
theorem C31_store_in_range (n np1 : Nat) (hn : n < 2 ^ 24) (x : F32) (a : UInt32)
    (h : quantizeN n np1 x = .ok a) : a.toNat ≤ n := by
  have hx : x.ge0 = true := by
    unfold quantizeN at h; split at h
    · assumption
    · cases h
  rw [quantizeN_ok hx] at h
  cases h
  have hinf : (f32OfFrac n 1).toNat ≤ 0x7f800000 := by rw [f32OfFrac_toNat]; exact roundBits_le
  have := f32ToU32_mono (x := f32MinPos (f32Scale x.abs np1)
    (f32OfFrac n 1)) hinf (by rw [f32MinPos_toNat]; omega)
  rw [toU32_ofNat hn] at this
  simp at this; omega

example : ∃ a b, quantizePercent 0x3e99999a = .ok a ∧ quantizePercent 0x3f19999a = .ok b ∧ a ≤ b :=
  C31_store_monotone 100 101 _ _ (by decide) (by decide) (by decide)

end Vpin
