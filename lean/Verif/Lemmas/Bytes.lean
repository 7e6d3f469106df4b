import Verif.Model.Bytes
/-! Helper lemmas about little-endian integers. -/
namespace Vpin

theorem byteAt_toNat (n k : Nat) : (byteAt n k).toNat = n / 256 ^ k % 256 := by
  simp [byteAt]

@[simp] theorem le16_length (x : UInt16) : (le16 x).length = 2 := rfl
@[simp] theorem le32_length (x : UInt32) : (le32 x).length = 4 := rfl
@[simp] theorem le64_length (x : UInt64) : (le64 x).length = 8 := rfl

theorem leNat_le16 (x : UInt16) : leNat (le16 x) = x.toNat := by
  have h : x.toNat < 65536 := x.toNat_lt
  simp only [le16, leNat, byteAt_toNat]; omega

theorem leNat_le32 (x : UInt32) : leNat (le32 x) = x.toNat := by
  have h : x.toNat < 4294967296 := x.toNat_lt
  simp only [le32, leNat, byteAt_toNat]; omega

theorem leNat_le64 (x : UInt64) : leNat (le64 x) = x.toNat := by
  have h : x.toNat < 18446744073709551616 := x.toNat_lt
  simp only [le64, leNat, byteAt_toNat]; omega

@[simp] theorem ofLe16_le16 (x : UInt16) : ofLe16 (le16 x) = x := by
  simp [ofLe16, leNat_le16]
@[simp] theorem ofLe32_le32 (x : UInt32) : ofLe32 (le32 x) = x := by
  simp [ofLe32, leNat_le32]
@[simp] theorem ofLe64_le64 (x : UInt64) : ofLe64 (le64 x) = x := by
  simp [ofLe64, leNat_le64]

/-- The other direction: four bytes are the encoding of the number they denote. -/
theorem le32_ofLe32 (a b c d : UInt8) : le32 (ofLe32 [a, b, c, d]) = [a, b, c, d] := by
  have ha := a.toNat_lt; have hb := b.toNat_lt; have hc := c.toNat_lt; have hd := d.toNat_lt
  simp only [le32, ofLe32, leNat, UInt32.toNat_ofNat']
  simp only [List.cons.injEq, ← UInt8.toNat_inj, byteAt_toNat, and_true]
  omega

end Vpin
