import Verif.Model.Common
/-!
# Vocabulary: the texts of colours
-/
namespace Vpin

/-- the character is the hexadecimal digit of a value, of either case -/
def IsHexDigit (c : Char) (n : Nat) : Prop :=
  "0123456789abcdef".toList[n]? = some c ∨ "0123456789ABCDEF".toList[n]? = some c

/-- two characters are a byte in hexadecimal; a plus sign may stand in place of the first digit and
counts as zero -/
def IsHexByte (a b : Char) (v : UInt8) : Prop :=
  ∃ x y, (IsHexDigit a x ∨ a = '+' ∧ x = 0) ∧ IsHexDigit b y ∧ v.toNat = 16 * x + y

/-- a text reads as a colour: `#RRGGBB` without a fourth component, `UU#RRGGBB` with one -/
def ReadsAsColor (s : Str) (c : Color) : Prop :=
  ∃ r₁ r₂ g₁ g₂ b₁ b₂, IsHexByte r₁ r₂ c.r ∧ IsHexByte g₁ g₂ c.g ∧ IsHexByte b₁ b₂ c.b ∧
    (s = ['#', r₁, r₂, g₁, g₂, b₁, b₂] ∧ c.unused = 0 ∨
      ∃ u₁ u₂, IsHexByte u₁ u₂ c.unused ∧ s = [u₁, u₂, '#', r₁, r₂, g₁, g₂, b₁, b₂])

end Vpin
