import Verif.Lemmas.Biff
import Verif.Spec.Records
/-! Record names as tags. -/
namespace Vpin

theorem tagBytes_nameTag {name : Bytes} (h : RecordName name) :
    tagBytes (nameTag name) = name ++ List.replicate (4 - name.length) 0 := by
  obtain ⟨h1, h4, h0⟩ := h
  match name, h1, h4 with
  | [a], _, _ =>
    have := a.toNat_lt
    show tagBytes (leNat [a]) = [a, 0, 0, 0]
    simp only [tagBytes, leNat, List.cons.injEq, ← UInt8.toNat_inj, byteAt_toNat]
    simp
    omega
  | [a, b], _, _ =>
    have := a.toNat_lt; have := b.toNat_lt
    show tagBytes (leNat [a, b]) = [a, b, 0, 0]
    simp only [tagBytes, leNat, List.cons.injEq, ← UInt8.toNat_inj, byteAt_toNat]
    simp
    omega
  | [a, b, c], _, _ =>
    have := a.toNat_lt; have := b.toNat_lt; have := c.toNat_lt
    show tagBytes (leNat [a, b, c]) = [a, b, c, 0]
    simp only [tagBytes, leNat, List.cons.injEq, ← UInt8.toNat_inj, byteAt_toNat]
    simp
    omega
  | [a, b, c, d], _, _ =>
    have := a.toNat_lt; have := b.toNat_lt; have := c.toNat_lt; have := d.toNat_lt
    show tagBytes (leNat [a, b, c, d]) = [a, b, c, d]
    simp only [tagBytes, leNat, List.cons.injEq, ← UInt8.toNat_inj, byteAt_toNat]
    simp
    omega
  | [], h, _ => simp at h
  | a :: b :: c :: d :: e :: l, _, h => simp at h

theorem cutNul_pad {name : Bytes} (h : 0 ∉ name) (n : Nat) :
    cutNul (name ++ List.replicate n 0) = name := by
  cases n with
  | zero => simp [cutNul_eq_self h]
  | succ n => rw [List.replicate_succ]; exact cutNul_append_zero h _

theorem validTag_nameTag {name : Bytes} (h : RecordName name) : ValidTag (nameTag name) := by
  have hb := tagBytes_nameTag h
  obtain ⟨h1, h4, h0⟩ := h
  refine ⟨?_, ?_⟩
  · intro he
    have : name = [] := leNat_inj h0 (by simp) he
    subst this; simp at h1
  · rw [tagOfBytes, hb, cutNul_pad h0]; rfl

theorem nameTag_inj {a b : Bytes} (ha : RecordName a) (hb : RecordName b)
    (h : nameTag a = nameTag b) : a = b := leNat_inj ha.2.2 hb.2.2 h

theorem endbName_tag : nameTag endbName = ENDB := by decide

theorem recordBytes_eq {name : Bytes} (h : RecordName name) (p : Bytes) :
    recordBytes name p = (WOp.sized (nameTag name) p).bytes := by
  simp [recordBytes, WOp.bytes, tagBytes_nameTag h]

theorem recordBytes_endb : recordBytes endbName [] = endbBytes := by decide

end Vpin
