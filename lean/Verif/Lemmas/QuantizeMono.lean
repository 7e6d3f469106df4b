import Verif.Lemmas.Quantize
/-! Rounding, scaling and quantising are monotone. -/
namespace Vpin

theorem roundDiv_le {n d m : Nat} (h : n < m * d) : roundDiv n d ≤ m := by
  have hd : 0 < d := Nat.pos_of_ne_zero (by rintro rfl; simp at h)
  have : n / d < m := (Nat.div_lt_iff_lt_mul hd).2 h
  unfold roundDiv; split
  · omega
  · split <;> omega

theorem roundDiv_mono {n n' d : Nat} (hd : 0 < d) (h : n ≤ n') : roundDiv n d ≤ roundDiv n' d := by
  have hq : n / d ≤ n' / d := Nat.div_le_div_right h
  by_cases he : n / d = n' / d
  · have hr : n % d ≤ n' % d := by
      have h1 := Nat.div_add_mod n d
      have h2 := Nat.div_add_mod n' d
      rw [he] at h1; omega
    unfold roundDiv
    rw [he]
    have := Nat.mod_two_eq_zero_or_one (n' / d)
    split <;> split <;> (try split) <;> (try split) <;> omega
  · refine Nat.le_trans ?_ (roundDiv_ge n' d)
    refine roundDiv_le ?_
    have : n / d + 1 ≤ n' / d := by omega
    exact (Nat.div_lt_iff_lt_mul hd).1 (by omega)

theorem log2_mono {a b : Nat} (h : a ≤ b) : Nat.log2 a ≤ Nat.log2 b := by
  by_cases ha : a = 0
  · subst ha; exact Nat.zero_le _
  · exact (Nat.le_log2 (by omega)).2 (Nat.le_trans (Nat.log2_self_le ha) h)

theorem roundBits_mono {p q inf n n' d : Nat} (hp : 0 < p) (hd : 0 < d) (h : n ≤ n') :
    roundBits p q inf n d ≤ roundBits p q inf n' d := by
  unfold roundBits
  have ha : n * 2 ^ q ≤ n' * 2 ^ q := Nat.mul_le_mul_right _ h
  generalize n * 2 ^ q = a at ha
  generalize n' * 2 ^ q = a' at ha
  have hdiv : a / d ≤ a' / d := Nat.div_le_div_right ha
  have hl := log2_mono hdiv
  have hlt : a / d < 2 ^ (Nat.log2 (a / d) + 1) := Nat.lt_log2_self
  by_cases he : Nat.log2 (a / d) + 1 - p = Nat.log2 (a' / d) + 1 - p
  · simp only [he]
    have := roundDiv_mono (d := d * 2 ^ (Nat.log2 (a' / d) + 1 - p))
      (Nat.mul_pos hd (Nat.two_pow_pos _)) ha
    omega
  · have hne : a' / d ≠ 0 := by
      intro h0
      rw [h0] at hl he
      have h00 : Nat.log2 0 = 0 := by decide
      omega
    have hself : 2 ^ Nat.log2 (a' / d) ≤ a' / d := Nat.log2_self_le hne
    simp only
    generalize Nat.log2 (a / d) = l at hl hlt he ⊢
    generalize Nat.log2 (a' / d) = l' at hl he hself ⊢
    have h1 : roundDiv a (d * 2 ^ (l + 1 - p)) ≤ 2 ^ p := by
      refine roundDiv_le ?_
      have : a < 2 ^ (l + 1) * d := (Nat.div_lt_iff_lt_mul hd).1 hlt
      have h2 : 2 ^ (l + 1) ≤ 2 ^ (p + (l + 1 - p)) := Nat.pow_le_pow_right (by omega) (by omega)
      have h3 : 2 ^ p * (d * 2 ^ (l + 1 - p)) = 2 ^ (p + (l + 1 - p)) * d := by
        rw [Nat.pow_add]; ac_rfl
      rw [h3]
      exact Nat.lt_of_lt_of_le this (Nat.mul_le_mul_right _ h2)
    have h2 : 2 ^ (p - 1) ≤ roundDiv a' (d * 2 ^ (l' + 1 - p)) := by
      refine Nat.le_trans ?_ (roundDiv_ge _ _)
      rw [Nat.le_div_iff_mul_le (Nat.mul_pos hd (Nat.two_pow_pos _)),
        ← Nat.mul_assoc, Nat.mul_comm _ d, Nat.mul_assoc, ← Nat.pow_add]
      have : p - 1 + (l' + 1 - p) = l' := by omega
      rw [this, Nat.mul_comm]
      exact Nat.le_trans (Nat.mul_le_mul_right d hself) (Nat.div_mul_le_self a' d)
    have h3 : (l + 1 - p + 1) * 2 ^ (p - 1) ≤ (l' + 1 - p) * 2 ^ (p - 1) :=
      Nat.mul_le_mul_right _ (by omega)
    have h4 : 2 ^ p = 2 ^ (p - 1) + 2 ^ (p - 1) := by
      have : p = (p - 1) + 1 := by omega
      rw [this, Nat.pow_succ]; simp; omega
    rw [Nat.succ_mul] at h3
    omega

theorem f32OfFrac_mono {n n' d : Nat} (hd : 0 < d) (h : n ≤ n') :
    (f32OfFrac n d).toNat ≤ (f32OfFrac n' d).toNat := by
  rw [f32OfFrac_toNat, f32OfFrac_toNat]; exact roundBits_mono (by decide) hd h

theorem f64OfFrac_mono {n n' d : Nat} (hd : 0 < d) (h : n ≤ n') :
    (f64OfFrac n d).toNat ≤ (f64OfFrac n' d).toNat := by
  rw [f64OfFrac_toNat, f64OfFrac_toNat]; exact roundBits_mono (by decide) hd h

theorem mag_mono_aux {b b' s : Nat} (hs : 0 < s) (h : b ≤ b') :
    (if b / s = 0 then b % s else (s + b % s) * 2 ^ (b / s - 1))
      ≤ (if b' / s = 0 then b' % s else (s + b' % s) * 2 ^ (b' / s - 1)) := by
  have hq : b / s ≤ b' / s := Nat.div_le_div_right h
  have hm : b % s < s := Nat.mod_lt _ hs
  by_cases he : b / s = b' / s
  · have hr : b % s ≤ b' % s := by
      have h1 := Nat.div_add_mod b s
      have h2 := Nat.div_add_mod b' s
      rw [he] at h1; omega
    rw [he]; split
    · exact hr
    · exact Nat.mul_le_mul_right _ (by omega)
  · have hz := Nat.zero_le (b / s)
    generalize b / s = e at *
    generalize b' / s = e' at *
    rw [if_neg (show ¬ e' = 0 by omega)]
    have h2 : (s + b' % s) * 2 ^ (e' - 1) ≥ s * 2 ^ (e' - 1) := Nat.mul_le_mul_right _ (by omega)
    split
    · have := Nat.two_pow_pos (e' - 1)
      have : s * 1 ≤ s * 2 ^ (e' - 1) := Nat.mul_le_mul_left _ this
      omega
    · refine Nat.le_trans ?_ h2
      have h3 : 2 ^ (e) ≤ 2 ^ (e' - 1) := Nat.pow_le_pow_right (by omega) (by omega)
      have h4 : 2 ^ (e) = 2 * 2 ^ (e - 1) := by
        have : e = (e - 1) + 1 := by omega
        rw [this, Nat.pow_succ]; simp; omega
      calc (s + b % s) * 2 ^ (e - 1) ≤ (2 * s) * 2 ^ (e - 1) := Nat.mul_le_mul_right _ (by omega)
        _ = s * 2 ^ (e) := by rw [h4]; ac_rfl
        _ ≤ _ := Nat.mul_le_mul_left _ h3

theorem F32.mag_mono {x y : F32} (hy : y.toNat < 0x80000000) (h : x.toNat ≤ y.toNat) :
    x.mag ≤ y.mag := by
  unfold F32.mag
  rw [Nat.mod_eq_of_lt hy, Nat.mod_eq_of_lt (by omega)]
  exact mag_mono_aux (by decide) h

theorem F64.mag_mono {x y : F64} (hy : y.toNat < 0x8000000000000000) (h : x.toNat ≤ y.toNat) :
    x.mag ≤ y.mag := by
  unfold F64.mag
  rw [Nat.mod_eq_of_lt hy, Nat.mod_eq_of_lt (by omega)]
  exact mag_mono_aux (by decide) h

theorem f32OfFrac_lt (n d : Nat) : (f32OfFrac n d).toNat < 0x80000000 := by
  rw [f32OfFrac_toNat]
  have := @roundBits_le 24 149 0x7f800000 n d
  omega

theorem f64OfFrac_lt (n d : Nat) : (f64OfFrac n d).toNat < 0x8000000000000000 := by
  rw [f64OfFrac_toNat]
  have := @roundBits_le 53 1074 0x7ff0000000000000 n d
  omega

theorem f32MinPos_toNat (x y : F32) : (f32MinPos x y).toNat = min x.toNat y.toNat := by
  unfold f32MinPos
  split
  · next h => have : x.toNat ≤ y.toNat := h; omega
  · next h =>
    have : ¬ x.toNat ≤ y.toNat := h
    omega

theorem preciseDivide_mono {x y : F32} {n : Nat} (hn : 0 < n) (hy : y.toNat < 0x80000000)
    (h : x.toNat ≤ y.toNat) : (preciseDivide x n).toNat ≤ (preciseDivide y n).toNat := by
  unfold preciseDivide
  exact f32OfFrac_mono (Nat.two_pow_pos _) (F64.mag_mono (f64OfFrac_lt _ _)
    (f64OfFrac_mono (Nat.mul_pos (Nat.two_pow_pos _) hn) (F32.mag_mono hy h)))

theorem dequantizeN_mono {n : Nat} (hn : 0 < n) {i j : UInt32} (h : i ≤ j) :
    dequantizeN n i ≤ dequantizeN n j := by
  show (dequantizeN n i).toNat ≤ (dequantizeN n j).toNat
  unfold dequantizeN
  rw [f32MinPos_toNat, f32MinPos_toNat]
  have h' : i.toNat ≤ j.toNat := h
  have := preciseDivide_mono (x := u32ToF32 i) (y := u32ToF32 j) hn (f32OfFrac_lt _ _)
    (f32OfFrac_mono (by decide) h')
  omega

theorem dequantizeN_le_one (n : Nat) (i : UInt32) : dequantizeN n i ≤ f32One := by
  show (dequantizeN n i).toNat ≤ f32One.toNat
  unfold dequantizeN
  rw [f32MinPos_toNat]; omega

theorem f32Scale_mono {x y : F32} {k : Nat} (hy : y.toNat ≤ 0x7f800000) (h : x.toNat ≤ y.toNat) :
    (f32Scale x k).toNat ≤ (f32Scale y k).toNat := by
  unfold f32Scale F32.isFinite
  rw [Nat.mod_eq_of_lt (show y.toNat < 0x80000000 by omega),
    Nat.mod_eq_of_lt (show x.toNat < 0x80000000 by omega)]
  split
  · split
    · exact f32OfFrac_mono (Nat.two_pow_pos _)
        (Nat.mul_le_mul_right _ (F32.mag_mono (by omega) h))
    · next h1 =>
      simp at h1
      rw [f32OfFrac_toNat]
      have := @roundBits_le 24 149 0x7f800000 (x.mag * k) (2 ^ 149)
      omega
  · next h1 =>
    simp at h1
    rw [if_neg (by simp; omega)]
    exact h

theorem f32ToU32_mono {x y : F32} (hy : y.toNat ≤ 0x7f800000) (h : x.toNat ≤ y.toNat) :
    (f32ToU32 x).toNat ≤ (f32ToU32 y).toNat := by
  unfold f32ToU32 F32.isFinite
  rw [Nat.mod_eq_of_lt (show y.toNat < 0x80000000 by omega),
    Nat.mod_eq_of_lt (show x.toNat < 0x80000000 by omega)]
  split
  · split
    · have : x.mag / 2 ^ 149 ≤ y.mag / 2 ^ 149 :=
        Nat.div_le_div_right (F32.mag_mono (by omega) h)
      generalize x.mag / 2 ^ 149 = u at *
      generalize y.mag / 2 ^ 149 = v at *
      simp only [UInt32.toNat_ofNat']
      omega
    · show _ ≤ 4294967295
      have := (UInt32.ofNat (min (2 ^ 32 - 1) (x.mag / 2 ^ 149))).toNat_lt
      omega
  · next h1 =>
    simp at h1
    rw [if_neg (by simp; omega)]
    exact Nat.le_refl _

theorem f32Scale_le_inf {x : F32} {k : Nat} (hx : x.toNat ≤ 0x7f800000) :
    (f32Scale x k).toNat ≤ 0x7f800000 := by
  unfold f32Scale; split
  · rw [f32OfFrac_toNat]; exact roundBits_le
  · exact hx

theorem F32.abs_toNat (x : F32) : x.abs.toNat = x.toNat % 0x80000000 := by
  unfold F32.abs; simp; omega

theorem ge0_abs {x : F32} (h : x.ge0 = true) : x.abs.toNat ≤ 0x7f800000 := by
  unfold F32.ge0 F32.isNaN at h
  simp at h
  rw [F32.abs_toNat]; omega

end Vpin

namespace Vpin

theorem F32.mag_succ {b : Nat} {s : Nat} (hs : 1 < s) :
    (if b / s = 0 then b % s else (s + b % s) * 2 ^ (b / s - 1))
      < (if (b + 1) / s = 0 then (b + 1) % s else (s + (b + 1) % s) * 2 ^ ((b + 1) / s - 1)) := by
  have h1 := Nat.div_add_mod b s
  have hm : b % s < s := Nat.mod_lt _ (by omega)
  by_cases hb : b % s + 1 < s
  · have h2 : (b + 1) / s = b / s := by
      rw [Nat.div_eq_iff (by omega)]
      have : b / s * s = s * (b / s) := Nat.mul_comm _ _
      omega
    have h3 : (b + 1) % s = b % s + 1 := by
      have := Nat.div_add_mod (b + 1) s
      rw [h2] at this; omega
    rw [h2, h3]; split
    · omega
    · exact Nat.mul_lt_mul_of_pos_right (by omega) (Nat.two_pow_pos _)
  · have hmul : s * (b / s + 1) = s * (b / s) + s := Nat.mul_succ _ _
    have h2 : (b + 1) / s = b / s + 1 := by
      rw [Nat.div_eq_iff (by omega)]
      have : (b / s + 1) * s = s * (b / s + 1) := Nat.mul_comm _ _
      omega
    have h3 : (b + 1) % s = 0 := by
      have := Nat.div_add_mod (b + 1) s
      rw [h2] at this; omega
    rw [h2, h3]
    generalize b / s = e at *
    generalize b % s = m at *
    have hneg : ¬ (e + 1 = 0) := by omega
    simp only [if_neg hneg, Nat.add_sub_cancel, Nat.add_zero]
    split
    · next h0 => subst h0; simp; omega
    · next h0 =>
      have h4 : 2 ^ e = 2 * 2 ^ (e - 1) := by
        have : e = (e - 1) + 1 := by omega
        rw [this, Nat.pow_succ]; simp; omega
      rw [h4, ← Nat.mul_assoc]
      exact Nat.mul_lt_mul_of_pos_right (by omega) (Nat.two_pow_pos _)

/-- magnitudes and bit patterns of non-negative numbers are ordered alike -/
theorem F32.le_of_mag_le {x y : F32} (hx : x.toNat < 0x80000000) (hy : y.toNat < 0x80000000)
    (h : x.mag ≤ y.mag) : x.toNat ≤ y.toNat := by
  rcases Nat.lt_or_ge y.toNat x.toNat with hlt | hge
  · exfalso
    have h1 := mag_mono_aux (s := 0x800000) (b := y.toNat + 1) (b' := x.toNat) (by decide) hlt
    have h2 := F32.mag_succ (b := y.toNat) (s := 0x800000) (by decide)
    have hxm : x.mag = (if x.toNat / 0x800000 = 0 then x.toNat % 0x800000
        else (0x800000 + x.toNat % 0x800000) * 2 ^ (x.toNat / 0x800000 - 1)) := by
      unfold F32.mag; rw [Nat.mod_eq_of_lt hx]
    have hym : y.mag = (if y.toNat / 0x800000 = 0 then y.toNat % 0x800000
        else (0x800000 + y.toNat % 0x800000) * 2 ^ (y.toNat / 0x800000 - 1)) := by
      unfold F32.mag; rw [Nat.mod_eq_of_lt hy]
    omega
  · exact hge

/-- a number with a significand of at most 24 bits is rounded to itself -/
theorem f32OfFrac_exact {n d v m j : Nat} (hd : 0 < d) (h : n * 2 ^ 149 = v * d)
    (hv : v = m * 2 ^ j) (hm : m < 2 ^ 24) (hlt : v < 2 ^ 277) : (f32OfFrac n d).mag = v := by
  have hdiv : n * 2 ^ 149 / d = v := by rw [h, Nat.mul_div_cancel _ hd]
  have hb : (f32OfFrac n d).toNat = min 0x7f800000
      ((Nat.log2 v + 1 - 24) * 0x800000 + v / 2 ^ (Nat.log2 v + 1 - 24)) := by
    rw [f32OfFrac_toNat]
    unfold roundBits
    simp only [hdiv]
    generalize hl : Nat.log2 v = l
    have hexact : roundDiv (n * 2 ^ 149) (d * 2 ^ (l + 1 - 24)) = v / 2 ^ (l + 1 - 24) := by
      have hdvd : 2 ^ (l + 1 - 24) ∣ v := by
        by_cases h0 : v = 0
        · subst h0; exact ⟨0, by simp⟩
        · have h1 : 2 ^ l ≤ v := by rw [← hl]; exact Nat.log2_self_le h0
          have hj : l + 1 - 24 ≤ j := by
            apply Classical.byContradiction; intro hc
            have h2 : v < 2 ^ 24 * 2 ^ j := by
              rw [hv]; exact Nat.mul_lt_mul_of_pos_right hm (Nat.two_pow_pos _)
            rw [← Nat.pow_add] at h2
            have h3 : 2 ^ (24 + j) ≤ 2 ^ l := Nat.pow_le_pow_right (by omega) (by omega)
            omega
          rw [hv]
          exact Nat.dvd_trans (Nat.pow_dvd_pow 2 hj) ⟨m, Nat.mul_comm _ _⟩
      obtain ⟨k, hk⟩ := hdvd
      have hpos := Nat.two_pow_pos (l + 1 - 24)
      have e1 : n * 2 ^ 149 = (d * 2 ^ (l + 1 - 24)) * k := by rw [h, hk]; ac_rfl
      have hz : n * 2 ^ 149 % (d * 2 ^ (l + 1 - 24)) = 0 := by rw [e1]; exact Nat.mul_mod_right _ _
      unfold roundDiv
      rw [hz, if_pos (by have := Nat.mul_pos hd hpos; omega), e1,
        Nat.mul_div_cancel_left _ (Nat.mul_pos hd hpos), hk, Nat.mul_div_cancel_left _ hpos]
    rw [hexact]
  by_cases h0 : v = 0
  · subst h0
    have h00 : Nat.log2 0 = 0 := by decide
    have hbz : (f32OfFrac n d).toNat = 0 := by rw [hb, h00]; decide
    unfold F32.mag; rw [hbz]; decide
  · have h1 : 2 ^ Nat.log2 v ≤ v := Nat.log2_self_le h0
    have h2 : v < 2 ^ (Nat.log2 v + 1) := Nat.lt_log2_self
    have hl : Nat.log2 v < 277 := (Nat.log2_lt h0).2 hlt
    generalize Nat.log2 v = l at *
    by_cases hs : l < 24
    · have he : l + 1 - 24 = 0 ∨ l = 24 := by omega
      have he : l + 1 - 24 = 0 := by omega
      rw [he] at hb
      have hv24 : v < 2 ^ 24 := Nat.lt_of_lt_of_le h2 (Nat.pow_le_pow_right (by omega) (by omega))
      simp only [Nat.pow_zero, Nat.div_one, Nat.zero_mul, Nat.zero_add] at hb
      have hbv : (f32OfFrac n d).toNat = v := by rw [hb]; omega
      unfold F32.mag
      rw [hbv, Nat.mod_eq_of_lt (by omega)]
      simp only
      by_cases hc : v / 0x800000 = 0
      · rw [if_pos hc]; omega
      · rw [if_neg hc]
        have : v / 0x800000 = 1 := by omega
        rw [this]; simp; omega
    · generalize hE : l + 1 - 24 = e at *
      have hle : l = e + 23 := by omega
      have hq1 : 0x800000 ≤ v / 2 ^ e := by
        have e23 : (0x800000 : Nat) = 2 ^ 23 := by decide
        rw [e23, Nat.le_div_iff_mul_le (Nat.two_pow_pos _), ← Nat.pow_add, Nat.add_comm, ← hle]; exact h1
      have hq2 : v / 2 ^ e < 0x1000000 := by
        have e24 : (0x1000000 : Nat) = 2 ^ 24 := by decide
        rw [e24, Nat.div_lt_iff_lt_mul (Nat.two_pow_pos _), ← Nat.pow_add]
        have : 24 + e = l + 1 := by omega
        rw [this]; exact h2
      have hdvd : v / 2 ^ e * 2 ^ e = v := by
        have hj : e ≤ j := by
          apply Classical.byContradiction; intro hc
          have h2 : v < 2 ^ 24 * 2 ^ j := by
            rw [hv]; exact Nat.mul_lt_mul_of_pos_right hm (Nat.two_pow_pos _)
          rw [← Nat.pow_add] at h2
          have h3 : 2 ^ (24 + j) ≤ 2 ^ l := Nat.pow_le_pow_right (by omega) (by omega)
          omega
        refine Nat.div_mul_cancel ?_
        rw [hv]
        exact Nat.dvd_trans (Nat.pow_dvd_pow 2 hj) ⟨m, Nat.mul_comm _ _⟩
      have hbv : (f32OfFrac n d).toNat = e * 0x800000 + v / 2 ^ e := by
        clear hlt h hdiv hm hdvd
        rw [hb]; omega
      clear hb h hdiv hlt hm hv
      generalize v / 2 ^ e = u at *
      unfold F32.mag
      rw [hbv, Nat.mod_eq_of_lt (by omega)]
      simp only
      have e1 : (e * 0x800000 + u) / 0x800000 = e + 1 := by omega
      have e2 : (e * 0x800000 + u) % 0x800000 = u - 0x800000 := by omega
      rw [e1, e2, if_neg (by omega), Nat.add_sub_cancel]
      have : 0x800000 + (u - 0x800000) = u := by omega
      rw [this]; exact hdvd

end Vpin
