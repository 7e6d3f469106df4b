import Verif.Model.Version
import Verif.Model.Common
import Verif.Lemmas.Text
import Verif.Lemmas.Bytes
/-!
# C46, C49: font styles and versions
-/
namespace Vpin

/-! ### C46 -/

/-- C46: every set of styles survives storage as flags. -/
theorem C46_styles_roundtrip (s : FontStyles) : FontStyles.ofFlags s.toFlags = s := by
  obtain ⟨a, b, c, d, e⟩ := s
  revert a b c d e
  decide

/-- C46: different sets are stored differently. -/
theorem C46_styles_distinct (s t : FontStyles) (h : s.toFlags = t.toFlags) : s = t := by
  rw [← C46_styles_roundtrip s, h, C46_styles_roundtrip]

theorem C46_table : ∀ n : Fin 256,
    (FontStyles.ofFlags (UInt8.ofNat n.1)).toFlags = UInt8.ofNat n.1 &&& 0x1f := by decide +kernel

/-- C46: of any flag byte, exactly the five known bits are kept. -/
theorem C46_unknown_bits_ignored (f : UInt8) : (FontStyles.ofFlags f).toFlags = f &&& 0x1f := by
  have := C46_table ⟨f.toNat, f.toNat_lt⟩
  simpa only [UInt8.ofNat_toNat] using this

example : (FontStyles.mk false true false true false).toFlags = 10 := by decide

/-! ### C49 -/

theorem digitVal_digit {n : Nat} (h : n < 10) : digitVal (Char.ofNat (0x30 + n)) = some n := by
  unfold digitVal
  rw [toNat_ofNat (.inl (by omega)), if_pos (by omega)]
  congr 1
  omega

theorem decimalF_cons (f n : Nat) : ∃ c cs, decimalF (f + 1) n = c :: cs ∧ c ≠ '+' := by
  induction f generalizing n with
  | zero =>
    unfold decimalF
    have h : ∀ m, m < 10 → Char.ofNat (0x30 + m) ≠ '+' := by decide
    split
    · next hn => exact ⟨_, _, rfl, h n hn⟩
    · exact ⟨_, _, rfl, h _ (Nat.mod_lt _ (by decide))⟩
  | succ f ih =>
    unfold decimalF
    have h : ∀ m, m < 10 → Char.ofNat (0x30 + m) ≠ '+' := by decide
    split
    · next hn => exact ⟨_, _, rfl, h n hn⟩
    · obtain ⟨c, cs, e, hc⟩ := ih (n / 10)
      rw [e]
      exact ⟨c, _, rfl, hc⟩

theorem parseDigits_decimalF (f : Nat) : ∀ n rest, n < f → n < 2 ^ 32 →
    parseDigits 0 (decimalF f n ++ rest) = parseDigits n rest := by
  induction f with
  | zero => intro n rest h; omega
  | succ f ih =>
    intro n rest hf hn
    unfold decimalF
    by_cases h10 : n < 10
    · rw [if_pos h10]
      simp only [List.cons_append, List.nil_append, parseDigits, digitVal_digit h10]
      rw [if_pos (by omega)]
      congr 1
      omega
    · rw [if_neg h10, List.append_assoc, ih _ _ (by omega) (by omega)]
      simp only [List.cons_append, List.nil_append, parseDigits,
        digitVal_digit (Nat.mod_lt n (by decide : 10 > 0))]
      have e : 10 * (n / 10) + n % 10 = n := by omega
      rw [e, if_pos hn]

/-- C49: a version survives the text form. -/
theorem C49_text_roundtrip (v : Version) : Version.parse v.toText = .ok v := by
  have h := parseDigits_decimalF (v.number.toNat + 1) v.number.toNat [] (by omega) v.number.toNat_lt
  rw [List.append_nil] at h
  obtain ⟨c, cs, e, hc⟩ := decimalF_cons v.number.toNat v.number.toNat
  have h2 : parseU32 v.toText = .ok v.number := by
    unfold Version.toText decimal
    rw [e] at h ⊢
    have : parseU32 (c :: cs) = parseDigits 0 (c :: cs) := by
      unfold parseU32
      split
      · next hx => cases hx
      · next hx => cases hx; exact absurd rfl hc
      · next hx => cases hx; exact absurd rfl hc
      · rfl
    rw [this, h]
    simp [parseDigits]
  unfold Version.parse
  rw [h2]

/-- the number written with the digits of `s`, most significant first; `none` if `s` has something
other than the ten digits -/
def decimalValue : Nat → Str → Option Nat
  | acc, [] => some acc
  | acc, c :: cs =>
    if c.toNat < 0x30 ∨ 0x39 < c.toNat then none else decimalValue (10 * acc + (c.toNat - 0x30)) cs

theorem decimalValue_mono : ∀ (s : Str) (acc n : Nat), decimalValue acc s = some n → acc ≤ n := by
  intro s
  induction s with
  | nil => intro acc n h; cases h; exact Nat.le_refl _
  | cons c cs ih =>
    intro acc n h
    unfold decimalValue at h
    split at h
    · cases h
    · have := ih _ _ h
      omega

theorem parseDigits_iff (s : Str) : ∀ (acc : Nat), acc < 2 ^ 32 → ∀ v : UInt32,
    parseDigits acc s = .ok v ↔ decimalValue acc s = some v.toNat := by
  induction s with
  | nil =>
    intro acc ha v
    simp only [parseDigits, decimalValue, Except.ok.injEq, Option.some.injEq]
    constructor
    · rintro rfl; simp; omega
    · rintro rfl; simp
  | cons c cs ih =>
    intro acc ha v
    unfold parseDigits decimalValue digitVal
    by_cases hc : 0x30 ≤ c.toNat ∧ c.toNat ≤ 0x39
    · rw [if_pos hc, if_neg (by omega)]
      simp only
      by_cases ho : 10 * acc + (c.toNat - 0x30) < 2 ^ 32
      · rw [if_pos ho]
        exact ih _ ho v
      · rw [if_neg ho]
        constructor
        · intro h; cases h
        · intro h
          have := decimalValue_mono _ _ _ h
          have := v.toNat_lt
          omega
    · rw [if_neg hc, if_pos (by omega)]
      simp

/-- C49: what is accepted as a version: the digits of a number below 2^32, at least one, possibly
after a plus sign. -/
theorem C49_accepted (s : Str) (v : Version) :
    Version.parse s = .ok v ↔
      ∃ t, (s = t ∨ s = '+' :: t) ∧ t ≠ [] ∧ decimalValue 0 t = some v.number.toNat := by
  have hp : Version.parse s = .ok v ↔ parseU32 s = .ok v.number := by
    unfold Version.parse
    cases parseU32 s with
    | ok n => simp only [Except.ok.injEq]; constructor
              · rintro rfl; rfl
              · intro h; rw [h]
    | error e => simp
  have plus : ∀ t, decimalValue 0 ('+' :: t) = none := fun t => by
    unfold decimalValue
    rw [if_pos (by decide)]
  rw [hp]
  unfold parseU32
  split
  · constructor
    · intro h; cases h
    · rintro ⟨t, h | h, ht, -⟩
      · exact absurd h.symm ht
      · cases h
  · constructor
    · intro h; cases h
    · rintro ⟨t, h | h, ht, hv⟩
      · rw [← h, plus] at hv; cases hv
      · cases h; exact absurd rfl ht
  · next cs hne =>
    rw [parseDigits_iff _ _ (by decide)]
    constructor
    · intro h
      refine ⟨cs, .inr rfl, ?_, h⟩
      rintro rfl
      exact hne rfl
    · rintro ⟨t, h | h, ht, hv⟩
      · rw [← h, plus] at hv; cases hv
      · cases h; exact hv
  · next hne1 hne2 hne3 =>
    rw [parseDigits_iff _ _ (by decide)]
    constructor
    · intro h
      exact ⟨s, .inl rfl, hne1, h⟩
    · rintro ⟨t, h | h, ht, hv⟩
      · rw [h]; exact hv
      · exact absurd h (hne3 t)

/-- C49: a version survives the file form. -/
theorem C49_file_roundtrip (v : Version) (rest : Bytes) : Version.ofBytes (v.bytes ++ rest) = .ok v := by
  have : v.bytes ++ rest = (le32 v.number)[0] :: (le32 v.number)[1] :: (le32 v.number)[2] ::
      (le32 v.number)[3] :: rest := rfl
  rw [this]
  show Except.ok (⟨ofLe32 (le32 v.number)⟩ : Version) = _
  rw [ofLe32_le32]

/-- C49: the order is that of the numbers. -/
theorem C49_order (a b : Version) :
    (a.cmp b = .lt ↔ a.number.toNat < b.number.toNat) ∧ (a.cmp b = .eq ↔ a = b) ∧
    (a.cmp b = .gt ↔ b.number.toNat < a.number.toNat) := by
  unfold Version.cmp
  simp only [compare, compareOfLessAndEq]
  have h : (a.number < b.number) = (a.number.toNat < b.number.toNat) := by
    rw [UInt32.lt_iff_toNat_lt]
  have hinj : a.number = b.number ↔ a.number.toNat = b.number.toNat := UInt32.toNat_inj.symm
  have hab : a = b ↔ a.number = b.number := by cases a; cases b; simp
  by_cases h1 : a.number < b.number
  · rw [if_pos h1]
    rw [h] at h1
    simp only [hab, hinj]
    simp
    omega
  · rw [if_neg h1]
    rw [h] at h1
    by_cases h2 : a.number = b.number
    · rw [if_pos h2, hab]
      rw [hinj] at h2
      simp [hinj, h2]
    · rw [if_neg h2, hab]
      rw [hinj] at h2
      simp only [hinj]
      simp
      omega

example : Version.parse "1080".toList = .ok .default ∧ Version.parse "10.8".toList = .error .io ∧
    Version.parse "4294967296".toList = .error .io := by decide

end Vpin
