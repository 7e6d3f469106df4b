import Verif.Model.Bytes
/-
Specification vocabulary for text: which strings the file format can hold.
Nothing here refers to the encoders or decoders of the model.
-/
namespace Vpin

/-- every character is one of the 256 Latin-1 (ISO 8859-1) characters -/
def IsLatin1 (s : Str) : Prop := ∀ c ∈ s, c.toNat < 256

/-- no NUL character -/
def NulFree (s : Str) : Prop := ∀ c ∈ s, c.toNat ≠ 0

/-- Latin-1 text that fits in a record: no NUL, and the size of the record holding it
(4 bytes tag, 4 bytes length prefix and the text) is below 2^32. -/
def Text (s : Str) : Prop := IsLatin1 s ∧ NulFree s ∧ 8 + s.length < 2 ^ 32

instance (s : Str) : Decidable (Text s) :=
  inferInstanceAs (Decidable ((∀ c ∈ s, _) ∧ (∀ c ∈ s, _) ∧ _))

/-- number of bytes of the UTF-16 form of a string: two per character of the basic plane,
four (a surrogate pair) for the others -/
def utf16Len : Str → Nat
  | [] => 0
  | c :: cs => (if c.toNat < 0x10000 then 2 else 4) + utf16Len cs

/-- Unicode text that fits in a record as UTF-16. -/
def WText (s : Str) : Prop := 8 + utf16Len s < 2 ^ 32

instance (s : Str) : Decidable (WText s) := inferInstanceAs (Decidable (_ < _))

end Vpin
