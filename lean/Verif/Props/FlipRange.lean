import Verif.Lemmas.FlipRange
import Verif.Props.Obj
/-
C53: the writer finds an exact text for the V coordinate whenever there is one, and what that means for the numbers.
-/
namespace Vpin

section
variable {T : FloatText}

/-- 17 digits recover what the flipped number itself recovers -/
theorem exact_of_plain (P : PrecText T) {tv : F32} {y : F64} (hy : Plain y)
    (h : tv.toF64.oneMinus = y ∨ tv.toF64.oneMinus = 0x8000000000000000 ||| y) (hb : tv.toF64.oneMinus.oneMinus.toF32 = tv)
    (hn : tv.isNaN = false) : (flippedV T tv).2 = true := by
  obtain ⟨t, ht⟩ := shortest_some (T := T) (tv := tv) (recovers_of (prec17 P hy h) hb)
  unfold flippedV
  dsimp only
  rw [hn, if_neg (by decide)]
  split
  · rfl
  · split
    · rfl
    · rw [ht]

theorem exact_of_inf (S : StdText T) {tv : F32} (hi : tv.isInf = true) : (flippedV T tv).2 = true := by
  have h : tv = 0x7f800000 ∨ tv = 0xff800000 := by
    unfold F32.isInf at hi
    have h := of_decide_eq_true hi
    have := tv.toNat_lt
    have : tv.toNat = 0x7f800000 ∨ tv.toNat = 0xff800000 := by omega
    exact this.imp (fun h => UInt32.toNat_inj.1 h) (fun h => UInt32.toNat_inj.1 h)
  unfold flippedV
  dsimp only
  rcases h with rfl | rfl
  · have e : (F32.toF64 0x7f800000).oneMinus.toF32 = 0xff800000 := by decide +kernel
    have r : recovers T 0x7f800000 (T.show32 0xff800000) = true := recovers_of S.negInf (by decide +kernel)
    rw [if_neg (by decide), if_neg (by decide), e, if_pos r]
  · have e : (F32.toF64 0xff800000).oneMinus.toF32 = 0x7f800000 := by decide +kernel
    have r : recovers T 0xff800000 (T.show32 0x7f800000) = true := recovers_of S.inf (by decide +kernel)
    rw [if_neg (by decide), if_neg (by decide), e, if_pos r]

theorem exact_of_mid {tv : F32} (h1 : 0x3f000000 ≤ tv) (h2 : tv ≤ 0x40000000) : (flippedV T tv).2 = true := by
  have a : 0x3f000000 ≤ tv.toNat := h1
  have b : tv.toNat ≤ 0x40000000 := h2
  unfold flippedV
  dsimp only
  rw [if_neg (by unfold F32.isNaN; simp only [decide_eq_true_eq]; omega), if_pos ⟨h1, h2⟩]

/-- the size tells the exponent -/
theorem field_ge {b j : Nat} (h : 2 ^ (23 + j) ≤ bitsMag 0x800000 b) (hj : 0 < j) : j + 1 ≤ b / 0x800000 := by
  refine Nat.not_lt.1 (fun hlt => ?_)
  have e : bitsMag 0x800000 ((j + 1) * 0x800000) = 2 ^ (23 + j) := by
    unfold bitsMag
    rw [if_neg (by omega), Nat.mul_div_cancel _ (by decide), Nat.mul_mod_left, Nat.pow_add]
    rfl
  have := bitsMag_lt (s := 0x800000) (by decide) (show b < (j + 1) * 0x800000 by omega)
  omega

/-- **C53** Every V coordinate that is not too small has an exact text and gets one: zero, the infinities, and
every number of absolute value at least 2^-30, or 2^-29 if it is negative. -/
theorem C53_range (S : StdText T) (P : PrecText T) (tv : F32) (hn : tv.isNaN = false)
    (h : tv = 0 ∨ tv.isInf = true ∨ 2 ^ 119 ≤ tv.mag ∧ (tv.isNeg = true → 2 ^ 120 ≤ tv.mag)) :
    (flippedV T tv).2 = true := by
  rcases h with rfl | h | ⟨h1, h2⟩
  · exact exact_of_plain P (y := 0x3ff0000000000000) (by unfold Plain; decide) (Or.inl (by decide +kernel)) (by decide +kernel) hn
  · exact exact_of_inf S h
  by_cases hi : tv.isInf = true
  · exact exact_of_inf S hi
  have fin : tv.toNat % 0x80000000 < 0x7f800000 := by
    unfold F32.isNaN at hn
    unfold F32.isInf at hi
    simp only [decide_eq_false_iff_not, beq_iff_eq] at hn hi
    omega
  have lt := tv.toNat_lt
  rcases Nat.lt_or_ge tv.toNat 0x80000000 with hp | hp
  · rw [Nat.mod_eq_of_lt hp] at fin
    by_cases hm : 0x3f000000 ≤ tv.toNat ∧ tv.toNat ≤ 0x40000000
    · exact exact_of_mid hm.1 hm.2
    · rw [F32.mag_pos hp] at h1
      have f := field_ge (j := 96) h1 (by decide)
      obtain ⟨y, a, b, c⟩ := flip_pos (x := tv) (e := tv.toNat / 0x800000 - 2) fin (by omega) rfl (by omega) (by omega)
      exact exact_of_plain P a b c hn
  · have hneg : tv.isNeg = true := by unfold F32.isNeg; exact decide_eq_true hp
    have ea := F32.abs_toNat tv
    have e : tv = 0x80000000 ||| tv.abs := by
      apply UInt32.toNat_inj.1
      rw [f32_neg_toNat (by omega)]
      omega
    have hx : tv.abs.toNat < 0x7f800000 := by omega
    have h3 := h2 hneg
    rw [F32.mag_eq, ← ea] at h3
    have f := field_ge (j := 97) h3 (by decide)
    have r := flip_neg (x := tv.abs) (e := tv.abs.toNat / 0x800000 - 2) hx (by omega) rfl (by omega)
    rw [← e] at r
    exact exact_of_plain P r.1 (Or.inl rfl) r.2 hn

/-- **C53** The writer calls the text of a V coordinate exact if and only if there is an f64 at all, from which the
reader would get that coordinate. So the comment with the bytes is only written where no text would do. -/
theorem C53_complete (S : StdText T) (P : PrecText T) (tv : F32) (hn : tv.isNaN = false) :
    (flippedV T tv).2 = true ↔ ∃ v : F64, v.oneMinus.toF32 = tv := by
  constructor
  · intro h
    have r := flippedV_exact S h
    unfold recovers at r
    split at r
    · next v _ => exact ⟨v, by simpa using r⟩
    · cases r
  · rintro ⟨v, hv⟩
    by_cases h0 : tv = 0
    · exact C53_range S P tv hn (Or.inl h0)
    by_cases hs : tv.mag < 2 ^ 120
    · obtain ⟨a, b⟩ := small_exact hv h0 hs
      exact exact_of_plain P b (Or.inl a) (by rw [a]; exact hv) hn
    · exact C53_range S P tv hn (Or.inr (Or.inr ⟨by omega, fun _ => by omega⟩))

/-- **C53** No f64 is read as a V coordinate other than zero below 2^-53, or 2^-52 if it is negative, nor as the
negative zero: these need their bytes. -/
theorem C53_no_text (S : StdText T) (tv : F32) (h0 : tv ≠ 0)
    (h : tv.mag < 2 ^ 96 ∨ tv.isNeg = true ∧ tv.mag < 2 ^ 97) :
    (∀ v : F64, v.oneMinus.toF32 ≠ tv) ∧ (flippedV T tv).2 = false := by
  have no : ∀ v : F64, v.oneMinus.toF32 ≠ tv := by
    intro v e
    rcases back_coarse v with b | ⟨b, c⟩
    · exact h0 (e.symm.trans b)
    · rw [e] at b c
      rcases h with h | ⟨hn, h⟩
      · omega
      · have := c hn; omega
  refine ⟨no, ?_⟩
  rcases hf : (flippedV T tv).2
  · rfl
  · have r := flippedV_exact S hf
    unfold recovers at r
    split at r
    · next v _ => exact absurd (by simpa using r) (no v)
    · cases r

/-- **C53** The text is short: it is the one std prints for the flipped number as an f32, or one with at most 17 digits
behind the point, of which one digit less would not do. -/
theorem C53_short (tv : F32) (h : (flippedV T tv).2 = true) :
    (flippedV T tv).1 = T.show32 tv.toF64.oneMinus.toF32 ∨
    recovers T tv (T.show32 tv.toF64.oneMinus.toF32) = false ∧
    ∃ p, 1 ≤ p ∧ p ≤ 17 ∧ (flippedV T tv).1 = T.showPrec p tv.toF64.oneMinus ∧
      (p = 1 ∨ recovers T tv (T.showPrec (p - 1) tv.toF64.oneMinus) = false) := by
  unfold flippedV at h ⊢
  dsimp only at h ⊢
  split
  · next hn => rw [if_pos hn] at h; cases h
  next hn =>
  rw [if_neg hn] at h
  split
  · exact Or.inl rfl
  next hr =>
  rw [if_neg hr] at h
  split
  · exact Or.inl rfl
  next h2 =>
  rw [if_neg h2] at h
  refine Or.inr ⟨Bool.eq_false_iff.2 h2, ?_⟩
  split
  · next t ht => exact shortest_minimal ht
  · next ht => rw [ht] at h; cases h

end

/-! ### Examples -/

/-- Texts for examples: the bytes of the number that the decimal digits stand for. -/
def decimalText : FloatText := { byteText with
  showPrec := fun p x => byteText.show64
    ((if x.isNeg then 0x8000000000000000 else 0) ||| f64OfFrac (roundDiv (x.mag * 10 ^ p) (2 ^ 1074)) (10 ^ p)) }

theorem decimalText_std : StdText decimalText :=
  ⟨byteText_std.reads, byteText_std.reads64, byteText_std.nan, byteText_std.finite, byteText_std.inf,
    byteText_std.negInf, byteText_std.half⟩

theorem decimalText_prec : PrecText decimalText where
  rounded p x _ _ := by
    have h := roundDiv_near (x.mag * 10 ^ p) (2 ^ 1074) (Nat.two_pow_pos _)
    refine ⟨roundDiv (x.mag * 10 ^ p) (2 ^ 1074), h.2, h.1, ?_⟩
    unfold decimalText
    dsimp only
    unfold byteText
    dsimp only
    rw [byteText_map, if_neg (by rw [le64_length]; decide), if_pos (le64_length _), ofLe64_le64]

/-- a small coordinate: 2^-30 and a bit -/
example : (flippedV decimalText 0x30800001).2 = true :=
  C53_range decimalText_std decimalText_prec _ (by decide) (Or.inr (Or.inr (by decide +kernel)))
/-- the bound is sharp: with one bit less, nothing is read as this number -/
example : (flippedV decimalText 0x307fffff).2 = false := by
  rcases hf : (flippedV decimalText 0x307fffff).2
  · rfl
  · obtain ⟨v, hv⟩ := (C53_complete decimalText_std decimalText_prec _ (by decide)).1 hf
    obtain ⟨a, -⟩ := small_exact hv (by decide) (by decide +kernel)
    rw [← a] at hv
    exact absurd hv (by decide +kernel)
/-- a small negative one -/
example : (flippedV decimalText 0xb1000003).2 = true :=
  C53_range decimalText_std decimalText_prec _ (by decide) (Or.inr (Or.inr (by decide +kernel)))
/-- the negative zero needs its bytes -/
example : (flippedV decimalText 0x80000000).2 = false :=
  (C53_no_text decimalText_std _ (by decide) (Or.inl (by decide +kernel))).2
/-- a multiple of 2^-53 has a text, however small -/
example : (flippedV decimalText 0x25c00000).2 = true :=
  (C53_complete decimalText_std decimalText_prec _ (by decide)).2 ⟨0x3feffffffffffffd, by decide +kernel⟩
/-- one tenth is flipped to nine tenths, and one digit does -/
example : (flippedV decimalText 0x3dcccccd).1 = decimalText.showPrec 1 (F32.toF64 0x3dcccccd).oneMinus := by decide +kernel
/-- 0.12345679 needs eight digits, and the flipped f32 would not do -/
example : (flippedV decimalText 0x3dfcd6ea).1 = decimalText.showPrec 8 (F32.toF64 0x3dfcd6ea).oneMinus ∧
    recovers decimalText 0x3dfcd6ea (decimalText.showPrec 7 (F32.toF64 0x3dfcd6ea).oneMinus) = false ∧
    recovers decimalText 0x3dfcd6ea (decimalText.show32 (F32.toF64 0x3dfcd6ea).oneMinus.toF32) = false := by decide +kernel

end Vpin
