import Verif.Lemmas.Flip
import Verif.Spec.Obj
/-
Which V coordinates have a text with at most 17 digits behind the point that recovers them.
-/
namespace Vpin

theorem near_aux {m E H X Y B z : Nat} (m1 : 1 ≤ m) (x0 : 0 < X * Y) (hH : E * H = 32 * (X * Y))
    (bl : B + E ≤ 2 * (m * E)) (h1 : (64 * m - 1) * X ≤ z) (h2 : z ≤ (64 * m + 1) * X) :
    (B + 2 * (m * E)) * H < 2 * (z * Y) ∧ 2 * (z * Y) < (2 * (m * E) + (2 * (m * E) + 2 * E)) * H := by
  have g1 := Nat.mul_le_mul_right Y h1
  have g2 := Nat.mul_le_mul_right Y h2
  rw [Nat.mul_assoc] at g1 g2
  have q : m * E * H = 32 * (m * (X * Y)) := by rw [Nat.mul_assoc, hH, Nat.mul_left_comm]
  have h := Nat.mul_le_mul_right H bl
  rw [Nat.add_mul, Nat.mul_assoc 2, q, hH] at h
  rw [Nat.add_mul, Nat.add_mul, Nat.add_mul, Nat.mul_assoc 2, Nat.mul_assoc 2, q, hH]
  have hmk : X * Y ≤ m * (X * Y) := Nat.le_mul_of_pos_left _ m1
  rw [Nat.sub_mul, Nat.one_mul, Nat.mul_assoc] at g1
  rw [Nat.add_mul, Nat.one_mul, Nat.mul_assoc] at g2
  generalize m * (X * Y) = Q at *
  generalize X * Y = K at *
  generalize z * Y = Z at *
  generalize B * H = C at *
  omega

theorem pow_near (e : Nat) : (2 : Nat) ^ e * 2 ^ 1074 = 32 * (2 ^ (e + 920) * 2 ^ 149) := by
  rw [show (32 : Nat) = 2 ^ 5 from rfl, ← Nat.pow_add, ← Nat.pow_add, ← Nat.pow_add]
  rw [show e + 1074 = 5 + (e + 920 + 149) by omega]

/-- near a number means rounded to it -/
theorem f32_near {z : Nat} {x : F32} {m e : Nat} (hx : x.toNat < 0x7f800000)
    (he : x.toNat / 0x800000 = e + 2) (hm : m = 0x800000 + x.toNat % 0x800000)
    (h1 : (64 * m - 1) * 2 ^ (e + 920) ≤ z) (h2 : z ≤ (64 * m + 1) * 2 ^ (e + 920)) :
    f32OfFrac z (2 ^ 1074) = x := by
  have p1 : ∀ k : Nat, k * 2 ^ (e + 1) = 2 * (k * 2 ^ e) := by
    intro k; rw [Nat.pow_succ, ← Nat.mul_assoc, Nat.mul_comm]
  have p1' : (2 : Nat) ^ (e + 1) = 2 * 2 ^ e := by rw [Nat.pow_succ, Nat.mul_comm]
  have b0 : bitsMag 0x800000 x.toNat = 2 * (m * 2 ^ e) := by
    rw [← p1]
    unfold bitsMag
    rw [he, if_neg (by omega), hm]; rfl
  have bu : bitsMag 0x800000 (x.toNat + 1) = 2 * (m * 2 ^ e) + 2 * 2 ^ e := by
    rw [bitsMag_step (by decide), b0, he, ← p1']; rfl
  have bl : bitsMag 0x800000 (x.toNat - 1) + 2 ^ e ≤ 2 * (m * 2 ^ e) := by
    have h := bitsMag_step (s := 0x800000) (b := x.toNat - 1) (by decide)
    rw [Nat.sub_add_cancel (by omega), b0] at h
    have : 2 ^ e ≤ 2 ^ ((x.toNat - 1) / 0x800000 - 1) := Nat.pow_le_pow_right (by omega) (by omega)
    omega
  have h := near_aux (by omega) (Nat.mul_pos (Nat.two_pow_pos _) (Nat.two_pow_pos _)) (pow_near e) bl h1 h2
  refine f32OfFrac_of_mid (Nat.two_pow_pos _) (by omega) (fun _ => ?_) ?_
  · rw [b0]; exact h.1
  · rw [b0, bu]; exact h.2

/-- 17 digits behind the point are enough for an f64 of at least one half -/
theorem digits17 {n y : Nat} (hy : y < 0x7ff0000000000000) (hlo : 0x3fe0000000000000 ≤ y)
    (h1 : 2 * (n * 2 ^ 1074) ≤ 2 * (bitsMag 0x10000000000000 y * 10 ^ 17) + 2 ^ 1074)
    (h2 : 2 * (bitsMag 0x10000000000000 y * 10 ^ 17) ≤ 2 * (n * 2 ^ 1074) + 2 ^ 1074) :
    (f64OfFrac n (10 ^ 17)).toNat = y := by
  rw [f64OfFrac_toNat]
  have s1 := bitsMag_step (s := 0x10000000000000) (b := y) (by decide)
  have s2 := bitsMag_step (s := 0x10000000000000) (b := y - 1) (by decide)
  rw [Nat.sub_add_cancel (by omega)] at s2
  have t1 : 2 ^ 1020 ≤ 2 ^ (y / 0x10000000000000 - 1) := Nat.pow_le_pow_right (by omega) (by omega)
  have t2 : 2 ^ 1020 ≤ 2 ^ ((y - 1) / 0x10000000000000 - 1) := Nat.pow_le_pow_right (by omega) (by omega)
  have big : (2 : Nat) ^ 1074 < 2 ^ 1020 * 10 ^ 17 := by decide +kernel
  have u1 := Nat.mul_le_mul_right (10 ^ 17) t1
  have u2 := Nat.mul_le_mul_right (10 ^ 17) t2
  refine roundBits_of_mid (by decide) (by decide) (by omega) (fun _ => ?_) ?_
  · rw [Nat.add_mul]
    show bitsMag 0x10000000000000 (y - 1) * 10 ^ 17 + bitsMag 0x10000000000000 y * 10 ^ 17 < _
    rw [s2, Nat.add_mul] at h2 ⊢
    omega
  · rw [Nat.add_mul]
    show _ < bitsMag 0x10000000000000 y * 10 ^ 17 + bitsMag 0x10000000000000 (y + 1) * 10 ^ 17
    rw [s1, Nat.add_mul]
    omega

/-- a number that fits an f64, in units of 2^-1074 -/
def Short (n : Nat) : Prop := ∃ m j, m ≤ 2 ^ 53 ∧ j ≤ 2000 ∧ n = m * 2 ^ j

theorem round_between {lo n hi : Nat} (l : Short lo) (h : Short hi) (h1 : lo ≤ n) (h2 : n ≤ hi) :
    lo ≤ (f64OfFrac n (2 ^ 1074)).mag ∧ (f64OfFrac n (2 ^ 1074)).mag ≤ hi ∧
      (f64OfFrac n (2 ^ 1074)).toNat < 0x7ff0000000000000 := by
  obtain ⟨m, j, hm, hj, rfl⟩ := l
  obtain ⟨m', j', hm', hj', rfl⟩ := h
  have a := f64OfFrac_mag_ge (d := 2 ^ 1074) (Nat.two_pow_pos _) hm (small_lt hm hj) (Nat.mul_le_mul_right _ h1)
  have b := f64OfFrac_mag_le (d := 2 ^ 1074) (Nat.two_pow_pos _) hm' (small_lt hm' hj') (Nat.mul_le_mul_right _ h2)
  exact ⟨a, b.1, b.2⟩

theorem round_short {n : Nat} (h : Short n) : (f64OfFrac n (2 ^ 1074)).mag = n ∧
    (f64OfFrac n (2 ^ 1074)).toNat < 0x7ff0000000000000 := by
  have := round_between h h (Nat.le_refl _) (Nat.le_refl _)
  exact ⟨by omega, this.2.2⟩

theorem pow_le_split {j k : Nat} (h : j ≤ k) : (2 : Nat) ^ k = 2 ^ (k - j) * 2 ^ j := by
  rw [← Nat.pow_add]; congr 1; omega

/-- one and a number of 24 bits, neither too small nor too large, added -/
theorem short_add {m k : Nat} (hm : m ≤ 2 ^ 24) (h1 : 1022 ≤ k) (h2 : k ≤ 1100) : Short (2 ^ 1074 + m * 2 ^ k) := by
  rcases Nat.le_total k 1074 with h | h
  · refine ⟨2 ^ (1074 - k) + m, k, ?_, by omega, ?_⟩
    · have : 2 ^ (1074 - k) ≤ 2 ^ 52 := Nat.pow_le_pow_right (by omega) (by omega)
      omega
    · rw [pow_le_split h, Nat.add_mul]
  · refine ⟨1 + m * 2 ^ (k - 1074), 1074, ?_, by omega, ?_⟩
    · have : 2 ^ (k - 1074) ≤ 2 ^ 26 := Nat.pow_le_pow_right (by omega) (by omega)
      have := Nat.mul_le_mul hm this
      omega
    · rw [Nat.add_mul, Nat.one_mul, Nat.mul_assoc, ← pow_le_split h]

/-- one less a smaller number of 24 bits -/
theorem short_one_sub {m k : Nat} (h1 : 1021 ≤ k) (h2 : k ≤ 1074) : Short (2 ^ 1074 - m * 2 ^ k) := by
  refine ⟨2 ^ (1074 - k) - m, k, ?_, by omega, ?_⟩
  · have : 2 ^ (1074 - k) ≤ 2 ^ 53 := Nat.pow_le_pow_right (by omega) (by omega)
    omega
  · rw [pow_le_split h2, Nat.sub_mul]

/-- a number of 24 bits less one -/
theorem short_sub_one {m k : Nat} (hm : m ≤ 2 ^ 24) (h2 : k ≤ 1100) : Short (m * 2 ^ k - 2 ^ 1074) := by
  rcases Nat.le_total k 1074 with h | h
  · refine ⟨m - 2 ^ (1074 - k), k, Nat.le_trans (Nat.sub_le _ _) (by omega), by omega, ?_⟩
    rw [pow_le_split h, Nat.sub_mul]
  · refine ⟨m * 2 ^ (k - 1074) - 1, 1074, ?_, by omega, ?_⟩
    · have : 2 ^ (k - 1074) ≤ 2 ^ 26 := Nat.pow_le_pow_right (by omega) (by omega)
      have := Nat.mul_le_mul hm this
      omega
    · rw [Nat.sub_mul, Nat.one_mul, Nat.mul_assoc, ← pow_le_split h]

theorem half64 : bitsMag 0x10000000000000 0x3fe0000000000000 = 2 ^ 1073 := by decide +kernel

theorem half_le {y : F64} (hy : y.toNat < 0x7ff0000000000000) (h : 2 ^ 1073 ≤ y.mag) : 0x3fe0000000000000 ≤ y.toNat := by
  rw [F64.mag_pos (by omega), ← half64] at h
  refine Nat.not_lt.1 (fun h2 => ?_)
  have := bitsMag_lt (s := 0x10000000000000) (by decide) h2
  omega

theorem parts_mag {x : F32} {m e : Nat} (hx : x.toNat < 0x7f800000) (he : x.toNat / 0x800000 = e + 2)
    (hm : m = 0x800000 + x.toNat % 0x800000) : x.mag = m * 2 ^ (e + 1) := by
  rw [F32.mag_pos (by omega)]
  unfold bitsMag
  rw [he, if_neg (by omega), hm]; rfl

theorem parts_exact {m e : Nat} (hm : m ≤ 2 ^ 24) (he : e ≤ 900) :
    (f64OfFrac (m * 2 ^ (e + 1)) (2 ^ 149)).mag = m * 2 ^ (e + 926) ∧
      (f64OfFrac (m * 2 ^ (e + 1)) (2 ^ 149)).toNat < 0x7ff0000000000000 := by
  refine f64OfFrac_exact (Nat.two_pow_pos _) (by omega) (small_lt (by omega) (by omega)) ?_
  rw [Nat.mul_assoc, Nat.mul_assoc, ← Nat.pow_add, ← Nat.pow_add]

theorem F32.toF64_neg {x : F32} (h : x.toNat < 0x7f800000) :
    (0x80000000 ||| x).toF64 = 0x8000000000000000 ||| f64OfFrac x.mag (2 ^ 149) := by
  have e := f32_neg_toNat (y := x) (by omega)
  have e2 : (0x80000000 + x.toNat) % 0x80000000 = x.toNat := by omega
  have n1 : (0x80000000 ||| x).isNaN = false := by
    unfold F32.isNaN; rw [e, e2]; simp only [decide_eq_false_iff_not]; omega
  have n2 : (0x80000000 ||| x).isInf = false := by
    unfold F32.isInf; rw [e, e2]; simp only [beq_eq_false_iff_ne]; omega
  have n3 : (0x80000000 ||| x).isNeg = true := by unfold F32.isNeg; rw [e]; simp
  have n4 : (0x80000000 ||| x).mag = x.mag := by
    rw [F32.mag_eq, F32.mag_eq, e, e2, Nat.mod_eq_of_lt (by omega)]
  unfold F32.toF64
  rw [n1, n2, n3, n4]
  simp

/-- what 17 digits are enough for -/
def Plain (y : F64) : Prop := y.toNat < 0x7ff0000000000000 ∧ 0x3fe0000000000000 ≤ y.toNat

theorem near64 (m e : Nat) : m * 2 ^ (e + 926) = 64 * m * 2 ^ (e + 920) := by
  rw [show e + 926 = 6 + (e + 920) by omega, Nat.pow_add, ← Nat.mul_assoc, Nat.mul_comm m]

/-- a negative number comes back -/
theorem flip_neg {x : F32} {m e : Nat} (hx : x.toNat < 0x7f800000) (he : x.toNat / 0x800000 = e + 2)
    (hm : m = 0x800000 + x.toNat % 0x800000) (lo : 96 ≤ e) :
    Plain ((0x80000000 ||| x).toF64.oneMinus) ∧
      (0x80000000 ||| x).toF64.oneMinus.oneMinus.toF32 = 0x80000000 ||| x := by
  have m1 : m ≤ 2 ^ 24 := by omega
  have m2 : 2 ^ 23 ≤ m := by omega
  have e1 : e ≤ 300 := by omega
  have px := parts_exact m1 (e := e) (by omega)
  rw [F32.toF64_neg hx, F64.oneMinus_neg (by rw [parts_mag hx he hm]; exact px.2), parts_mag hx he hm, px.1]
  have bounds : ∀ F : F64, F.toNat < 0x7ff0000000000000 → 2 ^ 1074 < F.mag →
      (64 * m - 1) * 2 ^ (e + 920) ≤ F.mag - 2 ^ 1074 → F.mag - 2 ^ 1074 ≤ (64 * m + 1) * 2 ^ (e + 920) →
      Plain F ∧ F.oneMinus.toF32 = 0x80000000 ||| x := by
    intro F hF big b1 b2
    have pow : (2 : Nat) ^ 1073 < 2 ^ 1074 := Nat.pow_lt_pow_right (by omega) (by omega)
    refine ⟨⟨hF, half_le hF (by omega)⟩, ?_⟩
    have r := round_between (n := F.mag - 2 ^ 1074)
      (⟨64 * m - 1, e + 920, by omega, by omega, rfl⟩ : Short ((64 * m - 1) * 2 ^ (e + 920)))
      (⟨64 * m + 1, e + 920, by omega, by omega, rfl⟩ : Short ((64 * m + 1) * 2 ^ (e + 920))) b1 b2
    rw [F64.oneMinus_big hF big, F64.toF32_neg r.2.2, f32_near hx he hm r.1 r.2.1]
  have am : m * 2 ^ (e + 926) = 64 * m * 2 ^ (e + 920) := near64 m e
  have pos : 0 < m * 2 ^ (e + 926) := Nat.mul_pos (by omega) (Nat.two_pow_pos _)
  rcases Nat.lt_or_ge 174 e with h | h
  · have small : (2 : Nat) ^ 1074 ≤ 2 ^ (e + 920) := Nat.pow_le_pow_right (by omega) (by omega)
    have r := round_between (n := 2 ^ 1074 + m * 2 ^ (e + 926))
      (⟨64 * m, e + 920, by omega, by omega, rfl⟩ : Short (64 * m * 2 ^ (e + 920)))
      (⟨64 * m + 1, e + 920, by omega, by omega, rfl⟩ : Short ((64 * m + 1) * 2 ^ (e + 920)))
      (by rw [am]; exact Nat.le_add_left _ _)
      (by rw [am, Nat.add_mul, Nat.one_mul, Nat.add_comm]; exact Nat.add_le_add_left small _)
    refine bounds _ r.2.2 ?_ ?_ ?_
    · refine Nat.lt_of_lt_of_le ?_ r.1
      refine Nat.lt_of_le_of_lt small ?_
      have := Nat.mul_le_mul_right (2 ^ (e + 920)) (show 2 ≤ 64 * m by omega)
      have := Nat.two_pow_pos (e + 920)
      omega
    · refine Nat.le_trans ?_ (Nat.sub_le_sub_right r.1 _)
      rw [Nat.sub_mul, Nat.one_mul]
      exact Nat.sub_le_sub_left small _
    · exact Nat.le_trans (Nat.sub_le _ _) r.2.1
  · have r := round_short (short_add m1 (k := e + 926) (by omega) (by omega))
    refine bounds _ r.2 (by rw [r.1]; exact Nat.lt_add_of_pos_right pos) ?_ ?_
    · rw [r.1, Nat.add_sub_cancel_left, am]; exact Nat.mul_le_mul_right _ (by omega)
    · rw [r.1, Nat.add_sub_cancel_left, am]; exact Nat.mul_le_mul_right _ (by omega)

/-- a positive number comes back -/
theorem flip_pos {x : F32} {m e : Nat} (hx : x.toNat < 0x7f800000) (he : x.toNat / 0x800000 = e + 2)
    (hm : m = 0x800000 + x.toNat % 0x800000) (lo : 95 ≤ e) (out : x.toNat < 0x3f000000 ∨ 0x40000000 < x.toNat) :
    ∃ y : F64, Plain y ∧ (x.toF64.oneMinus = y ∨ x.toF64.oneMinus = 0x8000000000000000 ||| y) ∧
      x.toF64.oneMinus.oneMinus.toF32 = x := by
  have m1 : m ≤ 2 ^ 24 := by omega
  have m2 : 2 ^ 23 ≤ m := by omega
  have e1 : e ≤ 300 := by omega
  have px := parts_exact m1 (e := e) (by omega)
  have am : m * 2 ^ (e + 926) = 64 * m * 2 ^ (e + 920) := near64 m e
  have pos : 0 < m * 2 ^ (e + 926) := Nat.mul_pos (by omega) (Nat.two_pow_pos _)
  rw [F32.toF64_pos hx, parts_mag hx he hm]
  have near : ∀ z : F64, z.toNat < 0x7ff0000000000000 → (64 * m - 1) * 2 ^ (e + 920) ≤ z.mag →
      z.mag ≤ (64 * m + 1) * 2 ^ (e + 920) → z.toF32 = x := by
    intro z hz b1 b2
    rw [F64.toF32_pos hz, f32_near hx he hm b1 b2]
  rcases out with h | h
  · -- below one half
    have le : m * 2 ^ (e + 926) ≤ 2 ^ 1073 := by
      have p : (2 : Nat) ^ 1073 = 2 ^ 24 * 2 ^ 1049 := by rw [← Nat.pow_add]
      rw [p]
      exact Nat.mul_le_mul m1 (Nat.pow_le_pow_right (by omega) (by omega))
    have two : (2 : Nat) ^ 1074 = 2 ^ 1073 + 2 ^ 1073 := by rw [Nat.pow_succ, Nat.mul_two]
    rw [F64.oneMinus_pos px.2 (by rw [px.1]; omega), px.1]
    have r := round_short (short_one_sub (m := m) (k := e + 926) (by omega) (by omega))
    refine ⟨_, ⟨r.2, half_le r.2 (by omega)⟩, Or.inl rfl, ?_⟩
    rw [F64.oneMinus_pos r.2 (by omega), r.1, Nat.sub_sub_self (by omega)]
    have r2 := round_short (⟨m, e + 926, by omega, by omega, rfl⟩ : Short (m * 2 ^ (e + 926)))
    refine near _ r2.2 ?_ ?_
    · rw [r2.1, am]; exact Nat.mul_le_mul_right _ (by omega)
    · rw [r2.1, am]; exact Nat.mul_le_mul_right _ (by omega)
  · -- above two
    have ge : 2 ^ 1075 ≤ m * 2 ^ (e + 926) := by
      have p : (2 : Nat) ^ 1075 = 2 ^ 23 * 2 ^ 1052 := by rw [← Nat.pow_add]
      rw [p]
      exact Nat.mul_le_mul m2 (Nat.pow_le_pow_right (by omega) (by omega))
    have two : (2 : Nat) ^ 1075 = 2 ^ 1074 + 2 ^ 1074 := by rw [Nat.pow_succ, Nat.mul_two]
    have two' : (2 : Nat) ^ 1074 = 2 ^ 1073 + 2 ^ 1073 := by rw [Nat.pow_succ, Nat.mul_two]
    have op := Nat.two_pow_pos 1073
    rw [F64.oneMinus_big px.2 (by rw [px.1]; omega), px.1]
    have bounds : ∀ F : F64, F.toNat < 0x7ff0000000000000 → 2 ^ 1073 ≤ F.mag →
        (64 * m - 1) * 2 ^ (e + 920) ≤ 2 ^ 1074 + F.mag → 2 ^ 1074 + F.mag ≤ (64 * m + 1) * 2 ^ (e + 920) →
        ∃ y : F64, Plain y ∧ (0x8000000000000000 ||| F = y ∨ 0x8000000000000000 ||| F = 0x8000000000000000 ||| y) ∧
          (0x8000000000000000 ||| F).oneMinus.toF32 = x := by
      intro F hF big b1 b2
      have r := round_between (n := 2 ^ 1074 + F.mag)
        (⟨64 * m - 1, e + 920, by omega, by omega, rfl⟩ : Short ((64 * m - 1) * 2 ^ (e + 920)))
        (⟨64 * m + 1, e + 920, by omega, by omega, rfl⟩ : Short ((64 * m + 1) * 2 ^ (e + 920))) b1 b2
      exact ⟨F, ⟨hF, half_le hF big⟩, Or.inr rfl, by rw [F64.oneMinus_neg hF]; exact near _ r.2.2 r.1 r.2.1⟩
    rcases Nat.lt_or_ge 174 e with h | h
    · have small : (2 : Nat) ^ 1074 ≤ 2 ^ (e + 920) := Nat.pow_le_pow_right (by omega) (by omega)
      have r := round_between (n := m * 2 ^ (e + 926) - 2 ^ 1074)
        (⟨64 * m - 1, e + 920, by omega, by omega, rfl⟩ : Short ((64 * m - 1) * 2 ^ (e + 920)))
        (⟨64 * m, e + 920, by omega, by omega, rfl⟩ : Short (64 * m * 2 ^ (e + 920)))
        (by rw [am, Nat.sub_mul, Nat.one_mul]; exact Nat.sub_le_sub_left small _)
        (by rw [am]; exact Nat.sub_le _ _)
      refine bounds _ r.2.2 ?_ ?_ ?_
      · refine Nat.le_trans ?_ r.1
        refine Nat.le_trans (show (2 : Nat) ^ 1073 ≤ 2 ^ 1074 by omega) (Nat.le_trans small ?_)
        exact Nat.le_mul_of_pos_left _ (by omega)
      · exact Nat.le_trans r.1 (Nat.le_add_left _ _)
      · rw [Nat.add_mul, Nat.one_mul, Nat.add_comm]
        exact Nat.add_le_add r.2.1 small
    · have r := round_short (short_sub_one m1 (k := e + 926) (by omega))
      have back : 2 ^ 1074 + (f64OfFrac (m * 2 ^ (e + 926) - 2 ^ 1074) (2 ^ 1074)).mag = m * 2 ^ (e + 926) := by
        rw [r.1, Nat.add_comm]; exact Nat.sub_add_cancel (by omega)
      refine bounds _ r.2 (by omega) ?_ ?_
      · rw [back, am]; exact Nat.mul_le_mul_right _ (by omega)
      · rw [back, am]; exact Nat.mul_le_mul_right _ (by omega)

/-- 17 digits are enough -/
theorem prec17 {T : FloatText} (P : PrecText T) {F y : F64} (hy : Plain y) (h : F = y ∨ F = 0x8000000000000000 ||| y) :
    T.parse64 (T.showPrec 17 F) = some F := by
  have hm := F64.mag_pos (x := y) (by have := hy.1; omega)
  rcases h with rfl | rfl
  · obtain ⟨a, b, c⟩ := f64_pos hy.1
    obtain ⟨n, h1, h2, h3⟩ := P.rounded 17 F a b
    rw [hm] at h1 h2
    have d := UInt64.toNat_inj.1 (digits17 hy.1 hy.2 h1 h2)
    rw [h3, c, d]
    simp
  · obtain ⟨a, b, c, d⟩ := f64_neg hy.1
    obtain ⟨n, h1, h2, h3⟩ := P.rounded 17 _ a b
    rw [d, hm] at h1 h2
    have e := UInt64.toNat_inj.1 (digits17 hy.1 hy.2 h1 h2)
    rw [h3, c, e]
    simp

theorem flipPrecision_le (tv : F32) : flipPrecision tv ≤ 17 := by unfold flipPrecision; dsimp only; omega
theorem flipPrecision_ge (tv : F32) : 1 ≤ flipPrecision tv := by unfold flipPrecision; dsimp only; omega

/-- if 17 digits recover the number, the search finds a text -/
theorem shortest_some {T : FloatText} {F : F64} {tv : F32} (h : recovers T tv (T.showPrec 17 F) = true) :
    ∃ t, shortestRecovering T F tv = some t := by
  unfold shortestRecovering
  dsimp only
  split
  · exact ⟨_, rfl⟩
  · next hn =>
    have le := flipPrecision_le tv
    have ne : flipPrecision tv ≠ 17 := by
      intro e
      rw [e, if_pos h] at hn
      cases hn
    apply Option.isSome_iff_exists.1
    rw [List.findSome?_isSome_iff]
    refine ⟨17, List.mem_range'_1.2 ⟨by omega, by omega⟩, ?_⟩
    rw [if_pos h]; rfl

theorem walk_found {probe : Nat → Option Str} : ∀ (n : Nat) (t : Str), 1 ≤ n → probe n = some t →
    ∃ p, 1 ≤ p ∧ p ≤ n ∧ probe p = some (walkDown probe n t) ∧ (p = 1 ∨ probe (p - 1) = none) := by
  intro n
  induction n with
  | zero => intro t h; omega
  | succ n ih =>
    intro t _ ht
    cases n with
    | zero => exact ⟨1, by omega, by omega, ht, Or.inl rfl⟩
    | succ n =>
      unfold walkDown
      split
      · next s hs =>
        obtain ⟨p, h1, h2, h3, h4⟩ := ih s (by omega) hs
        exact ⟨p, h1, by omega, h3, h4⟩
      · next hs => exact ⟨n + 2, by omega, by omega, ht, Or.inr hs⟩

theorem first_found {probe : Nat → Option Str} : ∀ (k s : Nat) (t : Str), probe s = none →
    (List.range' (s + 1) k).findSome? probe = some t →
    ∃ p, s + 1 ≤ p ∧ p ≤ s + k ∧ probe p = some t ∧ probe (p - 1) = none := by
  intro k
  induction k with
  | zero => intro s t _ h; cases h
  | succ k ih =>
    intro s t hs h
    rw [List.range'_succ, List.findSome?_cons] at h
    split at h
    · next u hu => cases h; exact ⟨s + 1, by omega, by omega, hu, hs⟩
    · next hu =>
      obtain ⟨p, h1, h2, h3, h4⟩ := ih (s + 1) t hu h
      exact ⟨p, by omega, by omega, h3, h4⟩

/-- the text that is found has a digit more than one that does not recover the number -/
theorem shortest_minimal {T : FloatText} {F : F64} {tv : F32} {t : Str} (h : shortestRecovering T F tv = some t) :
    ∃ p, 1 ≤ p ∧ p ≤ 17 ∧ t = T.showPrec p F ∧ (p = 1 ∨ recovers T tv (T.showPrec (p - 1) F) = false) := by
  have hp : ∀ p s, (if recovers T tv (T.showPrec p F) then some (T.showPrec p F) else none) = some s →
      s = T.showPrec p F := by
    intro p s h
    split at h
    · cases h; rfl
    · cases h
  have hq : ∀ p, (if recovers T tv (T.showPrec p F) then some (T.showPrec p F) else none) = none →
      recovers T tv (T.showPrec p F) = false := by
    intro p h
    rcases hr : recovers T tv (T.showPrec p F)
    · rfl
    · rw [if_pos hr] at h; cases h
  have le := flipPrecision_le tv
  have ge := flipPrecision_ge tv
  unfold shortestRecovering at h
  dsimp only at h
  split at h
  · next u hu =>
    cases h
    obtain ⟨p, h1, h2, h3, h4⟩ := walk_found (probe := fun p =>
      if recovers T tv (T.showPrec p F) then some (T.showPrec p F) else none) _ _ ge hu
    exact ⟨p, h1, by omega, hp _ _ h3, h4.imp id (fun h => hq _ h)⟩
  · next hn =>
    obtain ⟨p, h1, h2, h3, h4⟩ := first_found (probe := fun p =>
      if recovers T tv (T.showPrec p F) then some (T.showPrec p F) else none) _ _ _ hn h
    exact ⟨p, by omega, by omega, hp _ _ h3, Or.inr (hq _ h4)⟩

/-! ### Too small to have a text -/

theorem bits53 : bitsMag 0x800000 (74 * 0x800000) = 2 ^ 96 := by decide +kernel
theorem bits52 : bitsMag 0x800000 (75 * 0x800000) = 2 ^ 97 := by decide +kernel

theorem f32_mag_ge {z j y : Nat} (hy : y ≤ 0x7f800000) (hb : bitsMag 0x800000 y = 2 ^ j) (h : 2 ^ (j + 925) ≤ z) :
    2 ^ j ≤ (f32OfFrac z (2 ^ 1074)).mag ∧ (f32OfFrac z (2 ^ 1074)).toNat ≤ 0x7f800000 := by
  have e := f32OfFrac_toNat z (2 ^ 1074)
  have le : roundBits 24 149 0x7f800000 z (2 ^ 1074) ≤ 0x7f800000 := by unfold roundBits; exact Nat.min_le_left _ _
  have ge := roundBits_ge_of (p := 24) (q := 149) (inf := 0x7f800000) (n := z) (d := 2 ^ 1074) (y := y)
    (by decide) (Nat.two_pow_pos _) hy (by
      show bitsMag 0x800000 y * 2 ^ 1074 ≤ z * 2 ^ 149
      rw [hb, show (1074 : Nat) = 925 + 149 from rfl, Nat.pow_add 2 925, ← Nat.mul_assoc, ← Nat.pow_add]
      exact Nat.mul_le_mul_right _ h)
  rw [F32.mag_pos (by omega), e, ← hb]
  exact ⟨bitsMag_mono (by decide) ge, le⟩

/-- a float of at least one half is a multiple of 2^-53, of at least one of 2^-52 -/
theorem coarse {b j : Nat} (h : (j + 1) * 0x10000000000000 ≤ b) : 2 ^ j ∣ bitsMag 0x10000000000000 b := by
  unfold bitsMag
  rw [if_neg (by omega)]
  exact Nat.dvd_mul_left_of_dvd (Nat.pow_dvd_pow 2 (by omega)) _

theorem f32_zero (d : Nat) : f32OfFrac 0 d = 0 := by
  unfold f32OfFrac roundBits roundDiv
  simp

theorem f64_zero (d : Nat) : f64OfFrac 0 d = 0 := by
  unfold f64OfFrac roundBits roundDiv
  simp

theorem dvd_sub_pos {a b c : Nat} (ha : c ∣ a) (hb : c ∣ b) (h : a - b ≠ 0) : c ≤ a - b :=
  Nat.le_of_dvd (by omega) (Nat.dvd_sub ha hb)

/-- reading back a nonzero number of this size -/
theorem toF32_ge {n j y : Nat} (hy : y ≤ 0x7f800000) (hb : bitsMag 0x800000 y = 2 ^ j) (hj : j ≤ 1000) (h : 2 ^ (j + 925) ≤ n) :
    2 ^ j ≤ (f64OfFrac n (2 ^ 1074)).toF32.mag ∧ (f64OfFrac n (2 ^ 1074)).toF32.toNat ≤ 0x7f800000 ∧
      2 ^ j ≤ (0x8000000000000000 ||| f64OfFrac n (2 ^ 1074)).toF32.mag ∧
      0x80000000 ≤ (0x8000000000000000 ||| f64OfFrac n (2 ^ 1074)).toF32.toNat := by
  rcases Nat.lt_or_ge (f64OfFrac n (2 ^ 1074)).toNat 0x7ff0000000000000 with hf | hf
  case inr =>
    have le : (f64OfFrac n (2 ^ 1074)).toNat ≤ 0x7ff0000000000000 := by
      rw [f64OfFrac_toNat]; unfold roundBits; exact Nat.min_le_left _ _
    have e : f64OfFrac n (2 ^ 1074) = 0x7ff0000000000000 := UInt64.toNat_inj.1 (Nat.le_antisymm le hf)
    rw [e]
    have big := bitsMag_mono (s := 0x800000) (by decide) hy
    rw [hb] at big
    have i1 : F64.toF32 0x7ff0000000000000 = 0x7f800000 := by decide +kernel
    have i2 : F64.toF32 (0x8000000000000000 ||| 0x7ff0000000000000) = 0xff800000 := by decide +kernel
    rw [i1, i2]
    exact ⟨big, Nat.le_refl _, big, by decide⟩
  have ge := f64OfFrac_mag_ge (n := n) (d := 2 ^ 1074) (m := 1) (j := j + 925) (Nat.two_pow_pos _) (by decide)
    (small_lt (by decide) (by omega)) (by rw [Nat.one_mul]; exact Nat.mul_le_mul_right _ h)
  rw [Nat.one_mul] at ge
  have r := f32_mag_ge hy hb ge
  rw [F64.toF32_pos hf, F64.toF32_neg hf]
  have e := f32_neg_toNat (y := f32OfFrac (f64OfFrac n (2 ^ 1074)).mag (2 ^ 1074)) (by omega)
  refine ⟨r.1, r.2, ?_, by omega⟩
  rw [F32.mag_eq, e, Nat.add_mod_left, ← F32.mag_eq]
  exact r.1

theorem one64_bits : bitsMag 0x10000000000000 0x3ff0000000000000 = 2 ^ 1074 := by decide +kernel

/-- what reading a V coordinate can give: nothing, or something that is not too small -/
theorem back_coarse (v : F64) : v.oneMinus.toF32 = 0 ∨
    (2 ^ 96 ≤ v.oneMinus.toF32.mag ∧ (v.oneMinus.toF32.isNeg = true → 2 ^ 97 ≤ v.oneMinus.toF32.mag)) := by
  have small : (74 * 0x800000 : Nat) ≤ 0x7f800000 := by decide
  have small' : (75 * 0x800000 : Nat) ≤ 0x7f800000 := by decide
  have p1 : (2 : Nat) ^ (96 + 925) ≤ 2 ^ 1074 := Nat.pow_le_pow_right (by omega) (by omega)
  have p2 : (2 : Nat) ^ (97 + 925) ≤ 2 ^ 1074 := Nat.pow_le_pow_right (by omega) (by omega)
  have pos : ∀ n, 2 ^ (96 + 925) ≤ n → 2 ^ 96 ≤ (f64OfFrac n (2 ^ 1074)).toF32.mag ∧
      ((f64OfFrac n (2 ^ 1074)).toF32.isNeg = true → 2 ^ 97 ≤ (f64OfFrac n (2 ^ 1074)).toF32.mag) := by
    intro n h
    have r := toF32_ge small bits53 (by decide) h
    refine ⟨r.1, fun hn => ?_⟩
    unfold F32.isNeg at hn
    have := of_decide_eq_true hn
    have := r.2.1
    omega
  unfold F64.oneMinus
  split
  · exact Or.inr (by decide +kernel)
  split
  · split
    · exact Or.inr (by decide +kernel)
    · exact Or.inr (by decide +kernel)
  split
  · exact Or.inr (pos _ (by omega))
  · next hn =>
    have vp : v.toNat < 0x8000000000000000 := by
      unfold F64.isNeg at hn
      simpa using hn
    have vm := F64.mag_pos vp
    split
    · next hle =>
      by_cases hz : 2 ^ 1074 - v.mag = 0
      · rw [hz, f64_zero]; exact Or.inl (by decide +kernel)
      · refine Or.inr (pos _ ?_)
        rcases Nat.lt_or_ge v.toNat (1022 * 0x10000000000000) with h | h
        · have := bitsMag_mono (s := 0x10000000000000) (by decide) (Nat.le_of_lt h)
          rw [← vm, show bitsMag 0x10000000000000 (1022 * 0x10000000000000) = 2 ^ 1073 from half64] at this
          have e : (2 : Nat) ^ 1074 = 2 ^ 1073 + 2 ^ 1073 := by rw [Nat.pow_succ, Nat.mul_two]
          have : (2 : Nat) ^ (96 + 925) ≤ 2 ^ 1073 := Nat.pow_le_pow_right (by omega) (by omega)
          omega
        · exact dvd_sub_pos (Nat.pow_dvd_pow 2 (by omega)) (by rw [vm]; exact coarse (by omega)) hz
    · next hgt =>
      have h : 1023 * 0x10000000000000 ≤ v.toNat := by
        refine Nat.not_lt.1 (fun h => ?_)
        have := bitsMag_mono (s := 0x10000000000000) (by decide) (Nat.le_of_lt h)
        rw [← vm, show bitsMag 0x10000000000000 (1023 * 0x10000000000000) = 2 ^ 1074 from one64_bits] at this
        omega
      have g := dvd_sub_pos (c := 2 ^ (97 + 925)) (by rw [vm]; exact coarse (by omega)) (Nat.pow_dvd_pow 2 (by omega))
        (show v.mag - 2 ^ 1074 ≠ 0 by omega)
      have r := toF32_ge small' bits52 (by decide) g
      exact Or.inr ⟨Nat.le_trans (by decide) r.2.2.1, fun _ => r.2.2.1⟩

/-! ### What is small and can be read back, is exact -/

/-- a number as the fraction it is -/
theorem f64OfFrac_self {y : F64} (h : y.toNat < 0x7ff0000000000000) : f64OfFrac y.mag (2 ^ 1074) = y := by
  have hm := F64.mag_pos (x := y) (by omega)
  apply UInt64.toNat_inj.1
  apply Nat.le_antisymm
  · exact f64OfFrac_le (Nat.two_pow_pos _) (by rw [hm]; exact Nat.le_refl _)
  · exact f64OfFrac_ge (Nat.two_pow_pos _) (by omega) (by rw [hm]; exact Nat.le_refl _)

/-- 24 bits fit an f32 -/
theorem f32_short {c : Nat} (hc : c ≤ 2 ^ 24) : (f32OfFrac (c * 2 ^ 1021) (2 ^ 1074)).mag = c * 2 ^ 96 ∧
    (f32OfFrac (c * 2 ^ 1021) (2 ^ 1074)).toNat < 0x7f800000 := by
  obtain ⟨y, hy⟩ := bitsMag_exists (s := 0x800000) (by decide) 96 c (by omega)
  have lt : y < 0x7f800000 := by
    rw [← bitsMag_lt_iff (s := 0x800000) (by decide), hy, bitsMag_inf32]
    have := Nat.mul_le_mul_right (2 ^ 96) hc
    omega
  have e : c * 2 ^ 1021 * 2 ^ 149 = c * 2 ^ 96 * 2 ^ 1074 := by
    rw [Nat.mul_assoc, Nat.mul_assoc, ← Nat.pow_add, ← Nat.pow_add]
  have t : (f32OfFrac (c * 2 ^ 1021) (2 ^ 1074)).toNat = y := by
    rw [f32OfFrac_toNat]
    apply Nat.le_antisymm
    · refine roundBits_le_of (by decide) (Nat.two_pow_pos _) ?_
      show _ ≤ bitsMag 0x800000 y * _
      rw [hy, e]; exact Nat.le_refl _
    · refine roundBits_ge_of (by decide) (Nat.two_pow_pos _) (by omega) ?_
      show bitsMag 0x800000 y * _ ≤ _
      rw [hy, e]; exact Nat.le_refl _
  rw [F32.mag_pos (by omega), t, hy]
  exact ⟨rfl, lt⟩

theorem bits29 : bitsMag 0x800000 (98 * 0x800000) = 2 ^ 120 := by decide +kernel

/-- if a V coordinate that is not zero and not large is read from the f64 `v`, then `v` is what the writer would flip it to -/
theorem small_exact {v : F64} {tv : F32} (h : v.oneMinus.toF32 = tv) (h0 : tv ≠ 0) (hs : tv.mag < 2 ^ 120) :
    tv.toF64.oneMinus = v ∧ Plain v := by
  have lim : (98 * 0x800000 : Nat) ≤ 0x7f800000 := by decide
  have p1 : (2 : Nat) ^ (120 + 925) ≤ 2 ^ 1073 := Nat.pow_le_pow_right (by omega) (by omega)
  have two : (2 : Nat) ^ 1074 = 2 ^ 1073 + 2 ^ 1073 := by rw [Nat.pow_succ, Nat.mul_two]
  have big : ∀ n, 2 ^ (120 + 925) ≤ n → ¬ (f64OfFrac n (2 ^ 1074)).toF32 = tv := by
    intro n hn e
    have r := toF32_ge lim bits29 (by decide) hn
    rw [e] at r
    omega
  have big' : ∀ n, 2 ^ (120 + 925) ≤ n → ¬ (0x8000000000000000 ||| f64OfFrac n (2 ^ 1074)).toF32 = tv := by
    intro n hn e
    have r := toF32_ge lim bits29 (by decide) hn
    rw [e] at r
    omega
  unfold F64.oneMinus at h
  split at h
  · rw [← h] at hs; exact absurd hs (by decide +kernel)
  next hnan =>
  split at h
  · split at h
    · rw [← h] at hs; exact absurd hs (by decide +kernel)
    · rw [← h] at hs; exact absurd hs (by decide +kernel)
  next hinf =>
  split at h
  · exact absurd h (big _ (by omega))
  next hn =>
  have vp : v.toNat < 0x7ff0000000000000 := by
    unfold F64.isNeg at hn
    unfold F64.isNaN at hnan
    unfold F64.isInf at hinf
    simp only [decide_eq_true_eq, beq_iff_eq] at hn hnan hinf
    omega
  have vm := F64.mag_pos (x := v) (by omega)
  have lo : ∀ n c, n = c * 2 ^ 1021 → n < 2 ^ (120 + 925) → c ≤ 2 ^ 24 := by
    intro n c e l
    rw [e, show (120 + 925 : Nat) = 24 + 1021 from rfl, Nat.pow_add] at l
    have := Nat.lt_of_mul_lt_mul_right l
    omega
  split at h
  · next hle =>
    have b : 2 ^ 1074 - v.mag < 2 ^ (120 + 925) := Nat.lt_of_not_le fun hb => big _ hb h
    have half : 1022 * 0x10000000000000 ≤ v.toNat := half_le vp (by omega)
    obtain ⟨c, hc⟩ := Nat.dvd_sub (Nat.pow_dvd_pow 2 (show 1021 ≤ 1074 by omega))
      (show 2 ^ 1021 ∣ v.mag by rw [vm]; exact coarse (by omega))
    rw [Nat.mul_comm] at hc
    have c1 := lo _ _ hc b
    have r := round_short (⟨c, 1021, by omega, by omega, hc⟩ : Short (2 ^ 1074 - v.mag))
    rw [F64.toF32_pos r.2, r.1, hc] at h
    have f := f32_short c1
    rw [h] at f
    have g := parts_exact (m := c) (e := 95) c1 (by omega)
    rw [F32.toF64_pos f.2, f.1, F64.oneMinus_pos g.2 (by rw [g.1]; omega), g.1]
    rw [show c * 2 ^ (95 + 926) = 2 ^ 1074 - v.mag from hc.symm, Nat.sub_sub_self hle, f64OfFrac_self vp]
    exact ⟨rfl, vp, half⟩
  · next hgt =>
    have b : v.mag - 2 ^ 1074 < 2 ^ (120 + 925) := Nat.lt_of_not_le fun hb => big' _ hb h
    have half : 1022 * 0x10000000000000 ≤ v.toNat := half_le vp (by omega)
    obtain ⟨c, hc⟩ := Nat.dvd_sub (show 2 ^ 1021 ∣ v.mag by rw [vm]; exact coarse (by omega))
      (Nat.pow_dvd_pow 2 (show 1021 ≤ 1074 by omega))
    rw [Nat.mul_comm] at hc
    have c1 := lo _ _ hc b
    have r := round_short (⟨c, 1021, by omega, by omega, hc⟩ : Short (v.mag - 2 ^ 1074))
    rw [F64.toF32_neg r.2, r.1, hc] at h
    have f := f32_short c1
    have g := parts_exact (m := c) (e := 95) c1 (by omega)
    rw [← h, F32.toF64_neg f.2, f.1, F64.oneMinus_neg g.2, g.1]
    rw [show c * 2 ^ (95 + 926) = v.mag - 2 ^ 1074 from hc.symm, Nat.add_sub_cancel' (by omega), f64OfFrac_self vp]
    exact ⟨rfl, vp, half⟩

end Vpin
