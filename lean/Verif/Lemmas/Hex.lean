import Verif.Model.Hex
import Verif.Model.Sound
/-! Helper lemmas: hexadecimal texts. -/
namespace Vpin

theorem hex2_table_char : ∀ n : Fin 256, hexCharVal (hexDigit (n.val / 16)) = some (n.val / 16) ∧
    hexCharVal (hexDigit (n.val % 16)) = some (n.val % 16) := by decide +kernel

theorem hexDecode_encode : ∀ bs : Bytes, hexDecode (hexEncode bs) = some bs
  | [] => rfl
  | b :: bs => by
    have ih := hexDecode_encode bs
    obtain ⟨h1, h2⟩ := hex2_table_char ⟨b.toNat, b.toNat_lt⟩
    show hexDecode (hexDigit (b.toNat / 16) :: hexDigit (b.toNat % 16) :: hexEncode bs) = _
    unfold hexDecode
    dsimp only at h1 h2
    rw [h1, h2, ih]
    dsimp only
    rw [Nat.div_add_mod]
    simp

theorem hexDigit_lower : ∀ n : Fin 16, asciiLower (hexDigit n.val) = hexDigit n.val := by decide +kernel

theorem hexEncode_lower : ∀ bs : Bytes, (hexEncode bs).map asciiLower = hexEncode bs
  | [] => rfl
  | b :: bs => by
    have ih := hexEncode_lower bs
    have h1 := hexDigit_lower ⟨b.toNat / 16, by have := b.toNat_lt; omega⟩
    have h2 := hexDigit_lower ⟨b.toNat % 16, by omega⟩
    show asciiLower (hexDigit (b.toNat / 16)) :: asciiLower (hexDigit (b.toNat % 16)) :: (hexEncode bs).map asciiLower = _
    rw [ih]
    dsimp only at h1 h2
    rw [h1, h2]
    rfl

end Vpin
