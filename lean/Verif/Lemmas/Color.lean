import Verif.Model.Color
import Verif.Lemmas.Text
/-!
Bit operations and hexadecimal text of colours.
-/
namespace Vpin

theorem byteOf_shift (n : UInt32) (k : Nat) (hk : k < 32) :
    (((n >>> UInt32.ofNat k) &&& 0xff).toUInt8).toNat = n.toNat / 2 ^ k % 256 := by
  simp only [UInt32.toNat_toUInt8, UInt32.toNat_and, UInt32.toNat_shiftRight, Nat.shiftRight_eq_div_pow,
    UInt32.toNat_ofNat', UInt32.toNat_ofNat]
  have : k % 2 ^ 32 % 32 = k := by omega
  rw [this]
  have e : (255 % 2 ^ 32 : Nat) = 2 ^ 8 - 1 := rfl
  rw [e, Nat.and_two_pow_sub_one_eq_mod]
  omega

theorem or_add {a b : Nat} (k : Nat) (hb : b < 2 ^ k) : (a * 2 ^ k) ||| b = a * 2 ^ k + b := by
  rw [Nat.mul_comm]
  exact (Nat.two_pow_add_eq_or_of_lt hb a).symm

theorem byte_shl (x : UInt8) (k : Nat) (hk : k ≤ 24) :
    (x.toUInt32 <<< UInt32.ofNat k).toNat = x.toNat * 2 ^ k := by
  have hx := x.toNat_lt
  simp only [UInt32.toNat_shiftLeft, UInt8.toNat_toUInt32, UInt32.toNat_ofNat', Nat.shiftLeft_eq]
  have : k % 2 ^ 32 % 32 = k := by omega
  rw [this]
  apply Nat.mod_eq_of_lt
  have : 2 ^ k ≤ 2 ^ 24 := Nat.pow_le_pow_right (by decide) hk
  calc x.toNat * 2 ^ k ≤ x.toNat * 2 ^ 24 := Nat.mul_le_mul_left _ this
    _ < 2 ^ 32 := by omega

theorem winColor_toNat (c : Color) :
    c.toWinColor.toNat = c.unused.toNat * 2 ^ 24 + (c.b.toNat * 2 ^ 16 + (c.g.toNat * 2 ^ 8 + c.r.toNat)) := by
  have hr := c.r.toNat_lt
  have hg := c.g.toNat_lt
  have hb := c.b.toNat_lt
  have e1 := byte_shl c.unused 24 (by decide)
  have e2 := byte_shl c.b 16 (by decide)
  have e3 := byte_shl c.g 8 (by decide)
  have e4 : c.r.toUInt32.toNat = c.r.toNat := UInt8.toNat_toUInt32 _
  have ac : ∀ u r g b : Nat, ((u ||| r) ||| g) ||| b = u ||| (b ||| (g ||| r)) := by
    intros; ac_rfl
  unfold Color.toWinColor
  simp only [UInt32.toNat_or]
  rw [ac]
  change (c.unused.toUInt32 <<< UInt32.ofNat 24).toNat ||| ((c.b.toUInt32 <<< UInt32.ofNat 16).toNat |||
    ((c.g.toUInt32 <<< UInt32.ofNat 8).toNat ||| c.r.toUInt32.toNat)) = _
  rw [e1, e2, e3, e4, or_add 8 hr, or_add 16 (by omega), or_add 24 (by omega)]

theorem rgb_toNat (c : Color) :
    c.toRgb.toNat = c.r.toNat * 2 ^ 16 + (c.g.toNat * 2 ^ 8 + c.b.toNat) := by
  have hr := c.r.toNat_lt
  have hg := c.g.toNat_lt
  have hb := c.b.toNat_lt
  have e2 := byte_shl c.r 16 (by decide)
  have e3 := byte_shl c.g 8 (by decide)
  have e4 : c.b.toUInt32.toNat = c.b.toNat := UInt8.toNat_toUInt32 _
  unfold Color.toRgb
  simp only [UInt32.toNat_or]
  rw [Nat.or_assoc]
  change (c.r.toUInt32 <<< UInt32.ofNat 16).toNat |||
    ((c.g.toUInt32 <<< UInt32.ofNat 8).toNat ||| c.b.toUInt32.toNat) = _
  rw [e2, e3, e4, or_add 8 hb, or_add 16 (by omega)]

theorem byteOf_zero (n : UInt32) : ((n &&& 0xff).toUInt8).toNat = n.toNat % 256 := by
  have := byteOf_shift n 0 (by decide)
  simpa using this

theorem fromWinColor_toNat (n : UInt32) :
    (Color.fromWinColor n).unused.toNat = n.toNat / 2 ^ 24 ∧
    (Color.fromWinColor n).b.toNat = n.toNat / 2 ^ 16 % 256 ∧
    (Color.fromWinColor n).g.toNat = n.toNat / 2 ^ 8 % 256 ∧
    (Color.fromWinColor n).r.toNat = n.toNat % 256 := by
  refine ⟨?_, byteOf_shift n 16 (by decide), byteOf_shift n 8 (by decide), byteOf_zero n⟩
  have := byteOf_shift n 24 (by decide)
  have hn := n.toNat_lt
  refine this.trans ?_
  omega

theorem fromRgb_toNat (n : UInt32) :
    (Color.fromRgb n).unused.toNat = 0 ∧
    (Color.fromRgb n).r.toNat = n.toNat / 2 ^ 16 % 256 ∧
    (Color.fromRgb n).g.toNat = n.toNat / 2 ^ 8 % 256 ∧
    (Color.fromRgb n).b.toNat = n.toNat % 256 :=
  ⟨rfl, byteOf_shift n 16 (by decide), byteOf_shift n 8 (by decide), byteOf_zero n⟩

theorem Color.ext_toNat {a b : Color} (h1 : a.unused.toNat = b.unused.toNat)
    (h2 : a.r.toNat = b.r.toNat) (h3 : a.g.toNat = b.g.toNat) (h4 : a.b.toNat = b.b.toNat) : a = b := by
  cases a; cases b
  simp only [UInt8.toNat_inj] at h1 h2 h3 h4
  subst h1 h2 h3 h4
  rfl

/-! ### hexadecimal -/

theorem hex2_table : ∀ n : Fin 256,
    encodeUtf8 (hex2 (UInt8.ofNat n.1))
      = [UInt8.ofNat (hexDigit (n.1 / 16)).toNat, UInt8.ofNat (hexDigit (n.1 % 16)).toNat] ∧
    fromHex2 (UInt8.ofNat (hexDigit (n.1 / 16)).toNat) (UInt8.ofNat (hexDigit (n.1 % 16)).toNat)
      = .ok (UInt8.ofNat n.1) ∧
    charBoundary (UInt8.ofNat (hexDigit (n.1 / 16)).toNat) = true := by
  decide +kernel

/-- the two bytes of the text of a byte -/
theorem hex2_bytes (b : UInt8) : ∃ x y, encodeUtf8 (hex2 b) = [x, y] ∧ fromHex2 x y = .ok b ∧
    charBoundary x = true := by
  have h := hex2_table ⟨b.toNat, b.toNat_lt⟩
  simp only [UInt8.ofNat_toNat] at h
  exact ⟨_, _, h.1, h.2.1, h.2.2⟩

theorem encodeUtf8_append (s t : Str) : encodeUtf8 (s ++ t) = encodeUtf8 s ++ encodeUtf8 t := by
  simp [encodeUtf8]

theorem color_text_back (c : Color) : Color.ofText c.text = .ok c := by
  obtain ⟨u1, u2, hu, hu', hu''⟩ := hex2_bytes c.unused
  obtain ⟨r1, r2, hr, hr', hr''⟩ := hex2_bytes c.r
  obtain ⟨g1, g2, hg, hg', hg''⟩ := hex2_bytes c.g
  obtain ⟨b1, b2, hb, hb', hb''⟩ := hex2_bytes c.b
  have hs : encodeUtf8 ['#'] = [0x23] := by decide
  have hs' : charBoundary 0x23 = true := by decide
  unfold Color.text Color.ofText
  by_cases h0 : c.unused = 0
  · rw [if_pos h0]
    have e : encodeUtf8 (['#'] ++ hex2 c.r ++ hex2 c.g ++ hex2 c.b)
        = [0x23, r1, r2, g1, g2, b1, b2] := by
      rw [encodeUtf8_append, encodeUtf8_append, encodeUtf8_append, hs, hr, hg, hb]; rfl
    rw [e]
    simp only [hr'', hg'', hb'', hr', hg', hb', Bool.not_true, Bool.false_eq_true, if_false, ne_eq,
      not_true_eq_false]
    rw [← h0]
  · rw [if_neg h0]
    have e : encodeUtf8 (hex2 c.unused ++ ['#'] ++ hex2 c.r ++ hex2 c.g ++ hex2 c.b)
        = [u1, u2, 0x23, r1, r2, g1, g2, b1, b2] := by
      rw [encodeUtf8_append, encodeUtf8_append, encodeUtf8_append, encodeUtf8_append, hs, hu, hr, hg, hb]
      rfl
    rw [e]
    simp only [hr'', hg'', hb'', hu', hr', hg', hb', hs', Bool.not_true, Bool.false_eq_true, if_false,
      ne_eq, not_true_eq_false, Bool.or_self]

/-- only the bytes of hexadecimal digits have a value -/
theorem hexVal_some {b : UInt8} {x : Nat} (h : hexVal b = some x) : x < 16 ∧ b.toNat < 0x80 := by
  unfold hexVal at h
  split at h
  · cases h; omega
  · split at h
    · cases h; omega
    · split at h
      · cases h; omega
      · cases h

end Vpin
