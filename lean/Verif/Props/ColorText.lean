import Verif.Props.Color
import Verif.Spec.ColorText
/-!
# C33: which texts are colours
-/
namespace Vpin

theorem hexVal_spec (b : UInt8) (n : Nat) : hexVal b = some n ↔ b.toNat < 128 ∧ IsHexDigit (Char.ofNat b.toNat) n := by
  have key : ∀ k : Fin 256, ∀ n : Fin 16, hexVal (UInt8.ofNat k) = some n.val ↔
      k.val < 128 ∧ ("0123456789abcdef".toList[n.val]? = some (Char.ofNat k) ∨
        "0123456789ABCDEF".toList[n.val]? = some (Char.ofNat k)) := by decide +kernel
  have big : ∀ k : Fin 256, ∀ m ∈ hexVal (UInt8.ofNat k), m < 16 := by decide +kernel
  have hb : UInt8.ofNat b.toNat = b := by simp
  by_cases hn : n < 16
  · have := key ⟨b.toNat, b.toNat_lt⟩ ⟨n, hn⟩
    simp only [hb] at this
    exact this
  · constructor
    · intro h
      have := big ⟨b.toNat, b.toNat_lt⟩ n (by simp only [hb]; exact h)
      omega
    · rintro ⟨-, h | h⟩
      · rw [List.getElem?_eq_none (by simpa using hn)] at h; cases h
      · rw [List.getElem?_eq_none (by simpa using hn)] at h; cases h

theorem digit_lt {c : Char} {n : Nat} (h : IsHexDigit c n) : n < 16 := by
  refine Decidable.byContradiction fun hn => ?_
  rcases h with h | h
  · rw [List.getElem?_eq_none (by simpa using hn)] at h; cases h
  · rw [List.getElem?_eq_none (by simpa using hn)] at h; cases h

theorem char_of_byte {a : UInt8} (h : a.toNat < 128) : utf8Bytes (Char.ofNat a.toNat) = [a] := by
  have key : ∀ k : Fin 128, utf8Bytes (Char.ofNat k) = [UInt8.ofNat k] := by decide +kernel
  have := key ⟨a.toNat, h⟩
  simpa using this

theorem byte_of_digit {c : Char} {n : Nat} (h : IsHexDigit c n) : ∃ a : UInt8, a.toNat < 128 ∧ c = Char.ofNat a.toNat ∧
    hexVal a = some n := by
  have hn := digit_lt h
  have key : ∀ n : Fin 16, ∀ c, ("0123456789abcdef".toList[n.val]? = some c ∨ "0123456789ABCDEF".toList[n.val]? = some c) →
      c.toNat < 128 := by
    intro n c h
    have k1 : ∀ n : Fin 16, ∀ c ∈ "0123456789abcdef".toList[n.val]?, c.toNat < 128 := by decide +kernel
    have k2 : ∀ n : Fin 16, ∀ c ∈ "0123456789ABCDEF".toList[n.val]?, c.toNat < 128 := by decide +kernel
    rcases h with h | h
    · exact k1 n c h
    · exact k2 n c h
  have hc := key ⟨n, hn⟩ c h
  have e : (UInt8.ofNat c.toNat).toNat = c.toNat := by
    rw [UInt8.toNat_ofNat']; omega
  have e' : c = Char.ofNat (UInt8.ofNat c.toNat).toNat := by rw [e]; simp
  refine ⟨UInt8.ofNat c.toNat, by rw [e]; exact hc, e', ?_⟩
  rw [hexVal_spec]
  exact ⟨by rw [e]; exact hc, e' ▸ h⟩

/-- two bytes that are read as a number are the bytes of two characters that are one -/
theorem fromHex2_spec {a b v : UInt8} (h : fromHex2 a b = .ok v) :
    ∃ c d, utf8Bytes c = [a] ∧ utf8Bytes d = [b] ∧ IsHexByte c d v := by
  unfold fromHex2 at h
  cases hb : hexVal b with
  | none => rw [hb] at h; split at h <;> simp_all
  | some y =>
    rw [hb] at h
    obtain ⟨hb1, hb2⟩ := (hexVal_spec b y).1 hb
    have hy := digit_lt hb2
    by_cases hp : a = 0x2b
    · rw [if_pos hp] at h
      injection h with h
      subst hp
      refine ⟨'+', _, by decide, char_of_byte hb1, 0, y, Or.inr ⟨rfl, rfl⟩, hb2, ?_⟩
      rw [← h, UInt8.toNat_ofNat']; omega
    · rw [if_neg hp] at h
      cases ha : hexVal a with
      | none => rw [ha] at h; cases h
      | some x =>
        rw [ha] at h
        injection h with h
        obtain ⟨ha1, ha2⟩ := (hexVal_spec a x).1 ha
        have hx := digit_lt ha2
        refine ⟨_, _, char_of_byte ha1, char_of_byte hb1, x, y, Or.inl ha2, hb2, ?_⟩
        rw [← h, UInt8.toNat_ofNat']; omega

theorem hexByte_bytes {c d : Char} {v : UInt8} (h : IsHexByte c d v) : ∃ a b, utf8Bytes c = [a] ∧ utf8Bytes d = [b] ∧
    fromHex2 a b = .ok v ∧ charBoundary a = true ∧ charBoundary b = true := by
  obtain ⟨x, y, h1, h2, h3⟩ := h
  obtain ⟨b, hb1, hb2, hb3⟩ := byte_of_digit h2
  have hcb : ∀ {b : UInt8}, b.toNat < 128 → charBoundary b = true := by
    intro b hb
    simp only [charBoundary, isCont, Bool.not_eq_true', Bool.and_eq_false_imp, decide_eq_true_eq]
    omega
  have hv : UInt8.ofNat (16 * x + y) = v := by rw [← h3]; simp
  rcases h1 with h1 | ⟨rfl, rfl⟩
  · obtain ⟨a, ha1, ha2, ha3⟩ := byte_of_digit h1
    refine ⟨a, b, ha2 ▸ char_of_byte ha1, hb2 ▸ char_of_byte hb1, ?_, hcb ha1, hcb hb1⟩
    have hp : a ≠ 0x2b := by
      rintro rfl
      rw [show hexVal 0x2b = none by decide] at ha3
      cases ha3
    unfold fromHex2
    rw [if_neg hp, ha3, hb3]
    simp [hv]
  · refine ⟨0x2b, b, by decide, hb2 ▸ char_of_byte hb1, ?_, by decide, hcb hb1⟩
    unfold fromHex2
    rw [if_pos rfl, hb3]
    simp only [Nat.mul_zero, Nat.zero_add] at hv ⊢
    rw [hv]

theorem encodeUtf8_inj {s t : Str} (h : encodeUtf8 s = encodeUtf8 t) : s = t := by
  have := decode_encode_utf8 s
  rw [h, decode_encode_utf8 t] at this
  exact (Option.some.inj this).symm

/-- C33: a text is read as a colour exactly if it is `#RRGGBB` or `UU#RRGGBB` with hexadecimal bytes of
either case, whose first digit may also be a plus sign; and the components of the colour are those
bytes. -/
theorem C33_accepted (s : Str) (c : Color) : Color.ofText s = .ok c ↔ ReadsAsColor s c := by
  constructor
  · intro h
    unfold Color.ofText at h
    split at h
    · next b0 b1 b2 b3 b4 b5 b6 e =>
      split at h
      · cases h
      split at h
      · cases h
      next h0 =>
      have h0 : b0 = 0x23 := by simpa using h0
      split at h
      · cases h
      split at h
      · cases h
      next r hr =>
      split at h
      · cases h
      split at h
      · cases h
      next g hg =>
      split at h
      · cases h
      next b hb =>
      injection h with h
      subst h
      obtain ⟨r1, r2, hr1, hr2, hr3⟩ := fromHex2_spec hr
      obtain ⟨g1, g2, hg1, hg2, hg3⟩ := fromHex2_spec hg
      obtain ⟨c1, c2, hc1, hc2, hc3⟩ := fromHex2_spec hb
      refine ⟨r1, r2, g1, g2, c1, c2, hr3, hg3, hc3, Or.inl ⟨encodeUtf8_inj ?_, rfl⟩⟩
      rw [e, h0]
      simp only [encodeUtf8, List.flatMap_cons, List.flatMap_nil, hr1, hr2, hg1, hg2, hc1, hc2]
      rfl
    · next b0 b1 b2 b3 b4 b5 b6 b7 b8 e =>
      split at h
      · cases h
      split at h
      · cases h
      next h0 =>
      have h0 : b2 = 0x23 := by simpa using h0
      split at h
      · cases h
      next u hu =>
      split at h
      · cases h
      split at h
      · cases h
      next r hr =>
      split at h
      · cases h
      split at h
      · cases h
      next g hg =>
      split at h
      · cases h
      next b hb =>
      injection h with h
      subst h
      obtain ⟨u1, u2, hu1, hu2, hu3⟩ := fromHex2_spec hu
      obtain ⟨r1, r2, hr1, hr2, hr3⟩ := fromHex2_spec hr
      obtain ⟨g1, g2, hg1, hg2, hg3⟩ := fromHex2_spec hg
      obtain ⟨c1, c2, hc1, hc2, hc3⟩ := fromHex2_spec hb
      refine ⟨r1, r2, g1, g2, c1, c2, hr3, hg3, hc3, Or.inr ⟨u1, u2, hu3, encodeUtf8_inj ?_⟩⟩
      rw [e, h0]
      simp only [encodeUtf8, List.flatMap_cons, List.flatMap_nil, hu1, hu2, hr1, hr2, hg1, hg2, hc1, hc2]
      rfl
    · cases h
  · rintro ⟨r1, r2, g1, g2, b1, b2, hr, hg, hb, h⟩
    have hs' : charBoundary 0x23 = true := by decide
    have hs : utf8Bytes '#' = [0x23] := by decide
    obtain ⟨R1, R2, hr1, hr2, hr3, hr4, hr5⟩ := hexByte_bytes hr
    obtain ⟨G1, G2, hg1, hg2, hg3, hg4, hg5⟩ := hexByte_bytes hg
    obtain ⟨B1, B2, hb1, hb2, hb3, hb4, hb5⟩ := hexByte_bytes hb
    rcases h with ⟨rfl, hu⟩ | ⟨u1, u2, hu, rfl⟩
    · have e : encodeUtf8 ['#', r1, r2, g1, g2, b1, b2] = [0x23, R1, R2, G1, G2, B1, B2] := by
        simp only [encodeUtf8, List.flatMap_cons, List.flatMap_nil, hr1, hr2, hg1, hg2, hb1, hb2, hs]
        rfl
      unfold Color.ofText
      rw [e]
      simp only [hr4, hg4, hb4, hr3, hg3, hb3, Bool.not_true, Bool.false_eq_true, if_false, ne_eq, not_true_eq_false]
      rw [← hu]
    · obtain ⟨U1, U2, hu1, hu2, hu3, hu4, hu5⟩ := hexByte_bytes hu
      have e : encodeUtf8 [u1, u2, '#', r1, r2, g1, g2, b1, b2] = [U1, U2, 0x23, R1, R2, G1, G2, B1, B2] := by
        simp only [encodeUtf8, List.flatMap_cons, List.flatMap_nil, hr1, hr2, hg1, hg2, hb1, hb2, hs, hu1, hu2]
        rfl
      unfold Color.ofText
      rw [e]
      simp only [hr4, hg4, hb4, hr3, hg3, hb3, hu3, hs', Bool.not_true, Bool.false_eq_true, if_false, ne_eq,
        not_true_eq_false, Bool.or_self]

/-- C33: a text of ASCII characters that is no colour is refused with an error. -/
theorem C33_refused (s : Str) (ha : ∀ ch ∈ s, ch.toNat < 128) (h : ¬∃ c, ReadsAsColor s c) :
    Color.ofText s = .error .io := by
  have hc : ∀ b ∈ encodeUtf8 s, charBoundary b = true := by
    intro b hb
    obtain ⟨ch, hch, hb⟩ := List.mem_flatMap.1 hb
    have key : ∀ k : Fin 128, ∀ b ∈ utf8Bytes (Char.ofNat k), charBoundary b = true := by decide +kernel
    have := key ⟨ch.toNat, ha ch hch⟩ b
    simp only [Char.ofNat_toNat] at this
    exact this hb
  have hio : ∀ {a b e}, fromHex2 a b = .error e → e = .io := by
    intro a b e h
    unfold fromHex2 at h
    split at h
    · cases h
    · injection h with h; exact h.symm
  cases hr : Color.ofText s with
  | ok c => exact absurd ⟨c, (C33_accepted s c).1 hr⟩ h
  | error e =>
    congr 1
    unfold Color.ofText at hr
    split at hr
    · next e' =>
      rw [e'] at hc
      simp only [List.mem_cons, List.not_mem_nil, or_false, forall_eq_or_imp, forall_eq] at hc
      simp only [hc, Bool.not_true, Bool.false_eq_true, if_false] at hr
      repeat' split at hr
      all_goals first
        | (injection hr with hr; subst hr; first | rfl | (apply hio; assumption))
        | cases hr
    · next e' =>
      rw [e'] at hc
      simp only [List.mem_cons, List.not_mem_nil, or_false, forall_eq_or_imp, forall_eq] at hc
      simp only [hc, Bool.not_true, Bool.false_eq_true, if_false, Bool.or_self] at hr
      repeat' split at hr
      all_goals first
        | (injection hr with hr; subst hr; first | rfl | (apply hio; assumption))
        | cases hr
    · injection hr with hr; exact hr.symm

/-- C33: other texts can end the program: the slices of the text are taken at byte positions, and here
one of them is inside a character. -/
theorem C33_refused_counterexample : Color.ofText "é12345".toList = .error .panic := by decide

example : ReadsAsColor "80#12aBfF".toList ⟨0x80, 0x12, 0xab, 0xff⟩ := (C33_accepted _ _).1 (by decide)

example : ¬∃ c, ReadsAsColor "#12345g".toList c := by
  rintro ⟨c, h⟩
  have := (C33_accepted _ _).2 h
  revert this
  cases c
  rw [show Color.ofText "#12345g".toList = .error .io by decide]
  intro h; cases h

end Vpin
