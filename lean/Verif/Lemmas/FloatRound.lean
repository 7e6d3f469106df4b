import Verif.Lemmas.QuantizeMono
import Verif.Model.FloatText
/-! Rounding to a binary floating point format gives the nearest number: bounds by the midpoints. -/
namespace Vpin

/-- the magnitude of a bit pattern, `s` is the least significand of a normal number -/
def bitsMag (s b : Nat) : Nat := if b / s = 0 then b % s else (s + b % s) * 2 ^ (b / s - 1)

theorem F32.mag_eq (x : F32) : x.mag = bitsMag 0x800000 (x.toNat % 0x80000000) := rfl
theorem F64.mag_eq (x : F64) : x.mag = bitsMag 0x10000000000000 (x.toNat % 0x8000000000000000) := rfl

theorem bitsMag_mono {s b b' : Nat} (hs : 0 < s) (h : b ≤ b') : bitsMag s b ≤ bitsMag s b' :=
  mag_mono_aux hs h

theorem bitsMag_succ {s b : Nat} (hs : 1 < s) : bitsMag s b < bitsMag s (b + 1) := F32.mag_succ hs

theorem bitsMag_lt {s b b' : Nat} (hs : 1 < s) (h : b < b') : bitsMag s b < bitsMag s b' :=
  Nat.lt_of_lt_of_le (bitsMag_succ hs) (bitsMag_mono (by omega) h)

theorem bitsMag_lt_iff {s b b' : Nat} (hs : 1 < s) : bitsMag s b < bitsMag s b' ↔ b < b' := by
  constructor
  · intro h
    rcases Nat.lt_or_ge b b' with h1 | h1
    · exact h1
    · have := bitsMag_mono (s := s) (by omega) h1
      omega
  · exact bitsMag_lt hs

theorem bitsMag_inj {s b b' : Nat} (hs : 1 < s) (h : bitsMag s b = bitsMag s b') : b = b' := by
  rcases Nat.lt_trichotomy b b' with h1 | h1 | h1
  · have := bitsMag_lt hs h1; omega
  · exact h1
  · have := bitsMag_lt hs h1; omega

/-- the magnitude of significand `m` with exponent `e` -/
theorem bitsMag_mk {s e m : Nat} (hs : 0 < s) (hm : m ≤ 2 * s) (he : e = 0 ∨ s ≤ m) :
    bitsMag s (e * s + m) = m * 2 ^ e := by
  unfold bitsMag
  rcases Nat.lt_or_ge m s with h | h
  · have h0 : e = 0 := by omega
    subst h0
    rw [Nat.zero_mul, Nat.zero_add, Nat.div_eq_of_lt h, if_pos rfl, Nat.mod_eq_of_lt h]; simp
  · rcases Nat.lt_or_ge m (2 * s) with h2 | h2
    · have e1 : e * s + m = (m - s) + s * (e + 1) := by rw [Nat.mul_add, Nat.mul_comm s e]; omega
      rw [e1, Nat.add_mul_div_left _ _ hs, Nat.add_mul_mod_self_left, Nat.div_eq_of_lt (by omega),
        Nat.mod_eq_of_lt (by omega), if_neg (by omega)]
      congr 1
      · omega
      · congr 1; omega
    · have e1 : e * s + m = 0 + s * (e + 2) := by rw [Nat.mul_add, Nat.mul_comm s e]; omega
      rw [e1, Nat.add_mul_div_left _ _ hs, Nat.add_mul_mod_self_left, Nat.zero_div, Nat.zero_mod, if_neg (by omega)]
      have : m = 2 * s := by omega
      subst this
      have : (0 + (e + 2) - 1) = e + 1 := by omega
      rw [this, Nat.pow_succ]
      simp only [Nat.add_zero]
      ac_rfl

/-- every number with a short significand has a bit pattern -/
theorem bitsMag_exists {s : Nat} (hs : 0 < s) : ∀ (j m : Nat), m ≤ 2 * s → ∃ b, bitsMag s b = m * 2 ^ j
  | 0, m, h => ⟨0 * s + m, bitsMag_mk hs h (Or.inl rfl)⟩
  | j + 1, m, h => by
    rcases Nat.lt_or_ge m s with h1 | h1
    · obtain ⟨b, hb⟩ := bitsMag_exists hs j (2 * m) (by omega)
      exact ⟨b, by rw [hb, Nat.pow_succ]; ac_rfl⟩
    · exact ⟨(j + 1) * s + m, bitsMag_mk hs h (Or.inr h1)⟩

/-- the step to the next number -/
theorem bitsMag_step {s b : Nat} (hs : 0 < s) : bitsMag s (b + 1) = bitsMag s b + 2 ^ (b / s - 1) := by
  have h1 := Nat.div_add_mod b s
  have hm : b % s < s := Nat.mod_lt _ hs
  rcases Nat.eq_zero_or_pos (b / s) with h0 | h0
  · rw [h0] at h1 ⊢
    have hb : b = 0 * s + b % s := by omega
    have e1 : bitsMag s b = b % s := by
      rw [hb, bitsMag_mk hs (by omega) (Or.inl rfl)]; simp
    have e2 : bitsMag s (b + 1) = b % s + 1 := by
      have : b + 1 = 0 * s + (b % s + 1) := by omega
      rw [this, bitsMag_mk hs (by omega) (Or.inl rfl)]; simp
    rw [e1, e2]
  · obtain ⟨e, he⟩ : ∃ e, b / s = e + 1 := ⟨b / s - 1, by omega⟩
    rw [he] at h1 ⊢
    have hmul : s * (e + 1) = e * s + s := by rw [Nat.mul_add, Nat.mul_comm s e]; omega
    have e1 : bitsMag s b = (s + b % s) * 2 ^ e := by
      have : b = e * s + (s + b % s) := by omega
      rw [this, bitsMag_mk hs (by omega) (Or.inr (by omega)), ← this]
    have e2 : bitsMag s (b + 1) = (s + b % s + 1) * 2 ^ e := by
      have : b + 1 = e * s + (s + b % s + 1) := by omega
      rw [this, bitsMag_mk hs (by omega) (Or.inr (by omega))]
    rw [e1, e2, Nat.add_mul, Nat.one_mul]; rfl

/-- a normal number is at least the least significand -/
theorem bitsMag_ge {s b : Nat} (h : 0 < b / s) : s * 2 ^ (b / s - 1) ≤ bitsMag s b := by
  unfold bitsMag
  rw [if_neg (by omega)]
  exact Nat.mul_le_mul_right _ (by omega)

theorem roundDiv_near (a c : Nat) (hc : 0 < c) :
    2 * a ≤ 2 * (roundDiv a c * c) + c ∧ 2 * (roundDiv a c * c) ≤ 2 * a + c := by
  have h1 := Nat.div_add_mod a c
  have hm : a % c < c := Nat.mod_lt _ hc
  have h2 := Nat.mod_two_eq_zero_or_one (a / c)
  have hcomm : c * (a / c) = a / c * c := Nat.mul_comm _ _
  have hk : ∀ k, k = a / c ∨ k = a / c + 1 → k * c = a / c * c ∨ k * c = a / c * c + c := by
    rintro k (rfl | rfl)
    · exact Or.inl rfl
    · exact Or.inr (Nat.succ_mul _ _)
  unfold roundDiv
  split
  · omega
  · split
    · have := Nat.succ_mul (a / c) c
      rw [Nat.succ_eq_add_one] at this
      omega
    · rcases h2 with h2 | h2
      · rw [h2, Nat.add_zero]; omega
      · have := Nat.succ_mul (a / c) c
        rw [Nat.succ_eq_add_one] at this
        rw [h2]; omega

/-- The rounded number and the fraction: the fraction lies between the midpoints to the neighbours. -/
theorem roundBits_mid {p q inf n d : Nat} (hp : 1 < p) (hd : 0 < d) :
    ∃ b, roundBits p q inf n d = min inf b ∧
      2 * (n * 2 ^ q) ≤ (bitsMag (2 ^ (p - 1)) b + bitsMag (2 ^ (p - 1)) (b + 1)) * d ∧
      (0 < b → (bitsMag (2 ^ (p - 1)) (b - 1) + bitsMag (2 ^ (p - 1)) b) * d ≤ 2 * (n * 2 ^ q)) := by
  unfold roundBits
  generalize n * 2 ^ q = a
  generalize hs : 2 ^ (p - 1) = s
  have hs0 : 0 < s := by rw [← hs]; exact Nat.two_pow_pos _
  have h2s : 2 ^ p = 2 * s := by
    rw [← hs]
    have : p = (p - 1) + 1 := by omega
    rw [this, Nat.pow_succ]; simp; omega
  have hlt : a / d < 2 ^ (Nat.log2 (a / d) + 1) := Nat.lt_log2_self
  have hge : a / d ≠ 0 → 2 ^ Nat.log2 (a / d) ≤ a / d := fun h => Nat.log2_self_le h
  have hz : a / d = 0 → Nat.log2 (a / d) = 0 := by intro h; rw [h]; decide
  dsimp only
  generalize Nat.log2 (a / d) = l at *
  generalize he : l + 1 - p = e
  have hE : 0 < 2 ^ e := Nat.two_pow_pos _
  have hc : 0 < d * 2 ^ e := Nat.mul_pos hd hE
  have hup : a < 2 * s * (d * 2 ^ e) := by
    have h1 : a < 2 ^ (l + 1) * d := (Nat.div_lt_iff_lt_mul hd).1 hlt
    have h2 : 2 ^ (l + 1) ≤ 2 ^ (p + e) := Nat.pow_le_pow_right (by omega) (by omega)
    have h3 : 2 * s * (d * 2 ^ e) = 2 ^ (p + e) * d := by rw [← h2s, Nat.pow_add]; ac_rfl
    rw [h3]
    exact Nat.lt_of_lt_of_le h1 (Nat.mul_le_mul_right _ h2)
  have hlo : 0 < e → s * (d * 2 ^ e) ≤ a := by
    intro h0
    have hne : a / d ≠ 0 := by intro h; have := hz h; omega
    have h1 := hge hne
    have h3 : s * (d * 2 ^ e) = 2 ^ l * d := by
      have : l = (p - 1) + e := by omega
      rw [this, Nat.pow_add, hs]; ac_rfl
    rw [h3]
    exact Nat.le_trans (Nat.mul_le_mul_right _ h1) (Nat.div_mul_le_self _ _)
  obtain ⟨n1, n2⟩ := roundDiv_near a (d * 2 ^ e) hc
  have hm2 : roundDiv a (d * 2 ^ e) ≤ 2 * s := roundDiv_le hup
  have hm1 : e = 0 ∨ s ≤ roundDiv a (d * 2 ^ e) := by
    rcases Nat.eq_zero_or_pos e with h | h
    · exact Or.inl h
    · right
      refine Nat.le_trans ?_ (roundDiv_ge _ _)
      exact (Nat.le_div_iff_mul_le hc).2 (hlo h)
  generalize roundDiv a (d * 2 ^ e) = m at *
  have hX := bitsMag_mk hs0 hm2 hm1
  have hmd : ∀ k, k * 2 ^ e * d = k * (d * 2 ^ e) := by intro k; ac_rfl
  refine ⟨e * s + m, rfl, ?_, ?_⟩
  · have hstep : bitsMag s (e * s + m) + 2 ^ e ≤ bitsMag s (e * s + m + 1) := by
      rw [bitsMag_step hs0]
      refine Nat.add_le_add_left (Nat.pow_le_pow_right (by omega) ?_) _
      rcases hm1 with h | h
      · omega
      · have : e + 1 ≤ (e * s + m) / s := by
          rw [Nat.le_div_iff_mul_le hs0, Nat.add_mul]; omega
        omega
    have h1 : (bitsMag s (e * s + m) + (bitsMag s (e * s + m) + 2 ^ e)) * d
        ≤ (bitsMag s (e * s + m) + bitsMag s (e * s + m + 1)) * d :=
      Nat.mul_le_mul_right _ (Nat.add_le_add_left hstep _)
    refine Nat.le_trans ?_ h1
    rw [hX]
    have h2 : (m * 2 ^ e + (m * 2 ^ e + 2 ^ e)) * d = 2 * (m * (d * 2 ^ e)) + d * 2 ^ e := by
      rw [Nat.add_mul, Nat.add_mul, hmd, Nat.mul_comm (2 ^ e) d]; omega
    rw [h2]; exact n1
  · intro hb
    rcases Nat.lt_or_ge s m with h | h
    · have hX' : bitsMag s (e * s + m - 1) = (m - 1) * 2 ^ e := by
        have : e * s + m - 1 = e * s + (m - 1) := by omega
        rw [this]
        exact bitsMag_mk hs0 (by omega) (Or.inr (by omega))
      rw [hX, hX', Nat.add_mul, hmd, hmd]
      have : m * (d * 2 ^ e) = (m - 1) * (d * 2 ^ e) + d * 2 ^ e := by
        have : m = (m - 1) + 1 := by omega
        rw [this, Nat.add_mul]; simp
      omega
    · rcases Nat.eq_zero_or_pos e with h0 | h0
      · subst h0
        have hX' : bitsMag s (0 * s + m - 1) = (m - 1) * 2 ^ 0 := by
          have : 0 * s + m - 1 = 0 * s + (m - 1) := by omega
          rw [this]
          exact bitsMag_mk hs0 (by omega) (Or.inl rfl)
        rw [hX, hX', Nat.add_mul, hmd, hmd]
        have : m * (d * 2 ^ 0) = (m - 1) * (d * 2 ^ 0) + d * 2 ^ 0 := by
          have : m = (m - 1) + 1 := by omega
          rw [this, Nat.add_mul]; simp
        omega
      · have hms : m = s := by omega
        subst hms
        have h1 := hlo h0
        have h2 : bitsMag m (e * m + m - 1) ≤ bitsMag m (e * m + m) := bitsMag_mono hs0 (by omega)
        have h3 : (bitsMag m (e * m + m - 1) + bitsMag m (e * m + m)) * d
            ≤ (bitsMag m (e * m + m) + bitsMag m (e * m + m)) * d := Nat.mul_le_mul_right _ (Nat.add_le_add_right h2 _)
        refine Nat.le_trans h3 ?_
        rw [hX, Nat.add_mul, hmd]; omega

/-- strictly between the midpoints means rounded to that number -/
theorem roundBits_of_mid {p q inf n d x : Nat} (hp : 1 < p) (hd : 0 < d) (hx : x ≤ inf)
    (h1 : 0 < x → (bitsMag (2 ^ (p - 1)) (x - 1) + bitsMag (2 ^ (p - 1)) x) * d < 2 * (n * 2 ^ q))
    (h2 : 2 * (n * 2 ^ q) < (bitsMag (2 ^ (p - 1)) x + bitsMag (2 ^ (p - 1)) (x + 1)) * d) :
    roundBits p q inf n d = x := by
  obtain ⟨b, hb, u, l⟩ := roundBits_mid (p := p) (q := q) (inf := inf) (n := n) hp hd
  have hs : 0 < 2 ^ (p - 1) := Nat.two_pow_pos _
  rcases Nat.lt_trichotomy b x with h | h | h
  · exfalso
    have a1 := bitsMag_mono hs (show b ≤ x - 1 by omega)
    have a2 := bitsMag_mono hs (show b + 1 ≤ x by omega)
    have := Nat.mul_le_mul_right d (Nat.add_le_add a1 a2)
    have := h1 (by omega)
    omega
  · rw [hb, h]; omega
  · exfalso
    have a1 := bitsMag_mono hs (show x ≤ b - 1 by omega)
    have a2 := bitsMag_mono hs (show x + 1 ≤ b by omega)
    have := Nat.mul_le_mul_right d (Nat.add_le_add a1 a2)
    have := l (by omega)
    omega

theorem roundBits_ge_of {p q inf n d y : Nat} (hp : 1 < p) (hd : 0 < d) (hy : y ≤ inf)
    (h : bitsMag (2 ^ (p - 1)) y * d ≤ n * 2 ^ q) : y ≤ roundBits p q inf n d := by
  obtain ⟨b, hb, u, l⟩ := roundBits_mid (p := p) (q := q) (inf := inf) (n := n) hp hd
  have hs : 1 < 2 ^ (p - 1) := Nat.one_lt_two_pow (by omega)
  rw [hb]
  rcases Nat.lt_or_ge b y with h1 | h1
  · exfalso
    have a1 := bitsMag_lt hs h1
    have a2 := bitsMag_mono (s := 2 ^ (p - 1)) (by omega) (show b + 1 ≤ y by omega)
    have a3 := Nat.mul_lt_mul_of_pos_right (Nat.add_lt_add_of_lt_of_le a1 a2) hd
    have e : (bitsMag (2 ^ (p - 1)) y + bitsMag (2 ^ (p - 1)) y) * d = 2 * (bitsMag (2 ^ (p - 1)) y * d) := by
      rw [Nat.add_mul]; omega
    rw [e] at a3
    exact absurd (Nat.lt_of_le_of_lt u a3) (Nat.not_lt.2 (Nat.mul_le_mul_left 2 h))
  · omega

theorem roundBits_le_of {p q inf n d y : Nat} (hp : 1 < p) (hd : 0 < d)
    (h : n * 2 ^ q ≤ bitsMag (2 ^ (p - 1)) y * d) : roundBits p q inf n d ≤ y := by
  obtain ⟨b, hb, u, l⟩ := roundBits_mid (p := p) (q := q) (inf := inf) (n := n) hp hd
  have hs : 1 < 2 ^ (p - 1) := Nat.one_lt_two_pow (by omega)
  rw [hb]
  rcases Nat.lt_or_ge y b with h1 | h1
  · exfalso
    have a1 := bitsMag_lt hs h1
    have a2 := bitsMag_mono (s := 2 ^ (p - 1)) (by omega) (show y ≤ b - 1 by omega)
    have a3 := Nat.mul_lt_mul_of_pos_right (Nat.add_lt_add_of_le_of_lt a2 a1) hd
    have l := l (by omega)
    have e : (bitsMag (2 ^ (p - 1)) y + bitsMag (2 ^ (p - 1)) y) * d = 2 * (bitsMag (2 ^ (p - 1)) y * d) := by
      rw [Nat.add_mul]; omega
    rw [e] at a3
    exact absurd (Nat.lt_of_lt_of_le a3 l) (Nat.not_lt.2 (Nat.mul_le_mul_left 2 h))
  · omega

/-! ### f64 -/

theorem f64OfFrac_ge {n d y : Nat} (hd : 0 < d) (hy : y ≤ 0x7ff0000000000000)
    (h : bitsMag 0x10000000000000 y * d ≤ n * 2 ^ 1074) : y ≤ (f64OfFrac n d).toNat := by
  rw [f64OfFrac_toNat]
  exact roundBits_ge_of (by decide) hd hy h

theorem f64OfFrac_le {n d y : Nat} (hd : 0 < d)
    (h : n * 2 ^ 1074 ≤ bitsMag 0x10000000000000 y * d) : (f64OfFrac n d).toNat ≤ y := by
  rw [f64OfFrac_toNat]
  exact roundBits_le_of (by decide) hd h

theorem F64.mag_pos {x : F64} (h : x.toNat < 0x8000000000000000) : x.mag = bitsMag 0x10000000000000 x.toNat := by
  rw [F64.mag_eq, Nat.mod_eq_of_lt h]

theorem F32.mag_pos {x : F32} (h : x.toNat < 0x80000000) : x.mag = bitsMag 0x800000 x.toNat := by
  rw [F32.mag_eq, Nat.mod_eq_of_lt h]

theorem bitsMag_inf64 : bitsMag 0x10000000000000 0x7ff0000000000000 = 2 ^ 2098 := by decide +kernel
theorem bitsMag_inf32 : bitsMag 0x800000 0x7f800000 = 2 ^ 277 := by decide +kernel

/-- bit pattern of a short number -/
theorem exists64 (m j : Nat) (hm : m ≤ 2 ^ 53) (hlt : m * 2 ^ j < 2 ^ 2098) :
    ∃ y, bitsMag 0x10000000000000 y = m * 2 ^ j ∧ y < 0x7ff0000000000000 := by
  obtain ⟨y, hy⟩ := bitsMag_exists (s := 0x10000000000000) (by decide) j m (by omega)
  refine ⟨y, hy, ?_⟩
  rw [← bitsMag_lt_iff (s := 0x10000000000000) (by decide), hy, bitsMag_inf64]
  exact hlt

/-- lower and upper bounds that are short numbers survive rounding -/
theorem f64OfFrac_mag_ge {n d m j : Nat} (hd : 0 < d) (hm : m ≤ 2 ^ 53) (hlt : m * 2 ^ j < 2 ^ 2098)
    (h : m * 2 ^ j * d ≤ n * 2 ^ 1074) : m * 2 ^ j ≤ (f64OfFrac n d).mag := by
  obtain ⟨y, hy, hi⟩ := exists64 m j hm hlt
  rw [F64.mag_pos (f64OfFrac_lt n d), ← hy]
  exact bitsMag_mono (by decide) (f64OfFrac_ge hd (Nat.le_of_lt hi) (by rw [hy]; exact h))

theorem f64OfFrac_mag_le {n d m j : Nat} (hd : 0 < d) (hm : m ≤ 2 ^ 53) (hlt : m * 2 ^ j < 2 ^ 2098)
    (h : n * 2 ^ 1074 ≤ m * 2 ^ j * d) :
    (f64OfFrac n d).mag ≤ m * 2 ^ j ∧ (f64OfFrac n d).toNat < 0x7ff0000000000000 := by
  obtain ⟨y, hy, hi⟩ := exists64 m j hm hlt
  have h1 := f64OfFrac_le hd (by rw [hy]; exact h)
  rw [F64.mag_pos (f64OfFrac_lt n d), ← hy]
  exact ⟨bitsMag_mono (by decide) h1, by omega⟩

theorem f64OfFrac_exact {n d m j : Nat} (hd : 0 < d) (hm : m ≤ 2 ^ 53) (hlt : m * 2 ^ j < 2 ^ 2098)
    (h : n * 2 ^ 1074 = m * 2 ^ j * d) :
    (f64OfFrac n d).mag = m * 2 ^ j ∧ (f64OfFrac n d).toNat < 0x7ff0000000000000 := by
  have h1 := f64OfFrac_mag_ge hd hm hlt (Nat.le_of_eq h.symm)
  have h2 := f64OfFrac_mag_le hd hm hlt (Nat.le_of_eq h)
  exact ⟨by omega, h2.2⟩

/-! ### f32 -/

theorem f32OfFrac_of_mid {n d : Nat} {x : F32} (hd : 0 < d) (hx : x.toNat ≤ 0x7f800000)
    (h1 : 0 < x.toNat → (bitsMag 0x800000 (x.toNat - 1) + bitsMag 0x800000 x.toNat) * d < 2 * (n * 2 ^ 149))
    (h2 : 2 * (n * 2 ^ 149) < (bitsMag 0x800000 x.toNat + bitsMag 0x800000 (x.toNat + 1)) * d) :
    f32OfFrac n d = x := by
  apply UInt32.toNat_inj.1
  rw [f32OfFrac_toNat]
  exact roundBits_of_mid (by decide) hd hx h1 h2

theorem f32OfFrac_mid {n d : Nat} {x : F32} (hd : 0 < d) (h : f32OfFrac n d = x) (hx : x.toNat < 0x7f800000) :
    (0 < x.toNat → (bitsMag 0x800000 (x.toNat - 1) + bitsMag 0x800000 x.toNat) * d ≤ 2 * (n * 2 ^ 149)) ∧
    2 * (n * 2 ^ 149) ≤ (bitsMag 0x800000 x.toNat + bitsMag 0x800000 (x.toNat + 1)) * d := by
  obtain ⟨b, hb, u, l⟩ := roundBits_mid (p := 24) (q := 149) (inf := 0x7f800000) (n := n) (by decide) hd
  have hbx : b = x.toNat := by
    rw [← h, f32OfFrac_toNat, hb] at hx ⊢
    omega
  subst hbx
  exact ⟨l, u⟩

end Vpin
