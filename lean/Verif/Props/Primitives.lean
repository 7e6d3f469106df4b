import Verif.Lemmas.Fields
/-!
# C02: primitive fields survive writing and reading
-/
namespace Vpin

/-- A record holding `v`, written by `w` under any record name, is read back by `g` as `v`. -/
def FieldSurvives {α : Type} (w : Tag → α → WOp) (g : R α) (v : α) : Prop :=
  ∀ t, ValidTag t → t ≠ ENDB →
    ∃ bs, writeBiff [w t v] = .ok bs ∧
      readStruct [(t, fld g fun v _ => some v)] none bs = .ok (some v)

/-- The getter `g`, run where the reader is about to read `p` and `b` more bytes of the record
follow it, returns `v` and moves the reader over exactly `p`, whatever comes after. -/
def ReadsExactly {α : Type} (g : R α) (p : Bytes) (v : α) : Prop :=
  ∀ rest b tag warn raw,
    g ⟨p ++ rest, p.length + b, tag, warn, raw⟩ = .ok (v, ⟨rest, b, tag, warn, raw⟩)

theorem FieldRT.survives {α : Type} {w : Tag → α → WOp} {g : R α} {P : α → Prop}
    (h : FieldRT w g P) {v : α} (hp : P v) : FieldSurvives w g v := by
  intro t hv hne
  exact (h _ [(t, fld g fun v _ => some v)] (fun v _ => some v) none t v hv hne hp
    (by simp [List.lookup])).roundtrip

/-- C02: booleans -/
theorem C02_bool (v : Bool) : FieldSurvives wBool getBool v := bool_rt.survives trivial
/-- C02: unsigned 32 bit integers -/
theorem C02_u32 (v : UInt32) : FieldSurvives wU32 getU32 v := u32_rt.survives trivial
/-- C02: signed 32 bit integers -/
theorem C02_i32 (v : Int32) : FieldSurvives wI32 getI32 v := i32_rt.survives trivial
/-- C02: floats, every bit pattern -/
theorem C02_f32 (v : F32) : FieldSurvives wF32 getF32 v := f32_rt.survives trivial
/-- C02: two-component vectors -/
theorem C02_vertex2d (v : Vertex2D) : FieldSurvives wVertex2D getVertex2D v :=
  vertex2d_rt.survives trivial
/-- C02: three-component vectors, padded form -/
theorem C02_vertex3d (v : Vertex3D) : FieldSurvives wVertex3D getVertex3D v :=
  vertex3d_rt.survives trivial
/-- C02: three-component vectors, unpadded form -/
theorem C02_vertex3d_unpadded (v : Vertex3D) :
    FieldSurvives wVertex3DUnpadded getVertex3DUnpadded v := vertex3du_rt.survives trivial
/-- C02: colours -/
theorem C02_color (v : Color) : FieldSurvives wColor getColor v := color_rt.survives trivial

/-- C02: each primitive getter consumes exactly the bytes of the primitive. -/
theorem C02_consumes_exactly :
    (∀ v, ReadsExactly getBool (pBool v) v) ∧ (∀ v, ReadsExactly getU8 [v] v) ∧
    (∀ v, ReadsExactly getU16 (le16 v) v) ∧ (∀ v, ReadsExactly getU32 (le32 v) v) ∧
    (∀ v, ReadsExactly getI32 (le32 v.toUInt32) v) ∧ (∀ v, ReadsExactly getF32 (le32 v) v) ∧
    (∀ v, ReadsExactly getU64 (le64 v) v) ∧ (∀ v, ReadsExactly getF64 (le64 v) v) :=
  ⟨getBool_rt, getU8_rt, getU16_rt, getU32_rt, getI32_rt, getF32_rt, getU64_rt, getF64_rt⟩

/-- a signalling NaN, minus zero and minus infinity -/
example : FieldSurvives wF32 getF32 0x7fa00001 ∧ FieldSurvives wF32 getF32 0x80000000 ∧
    FieldSurvives wF32 getF32 0xff800000 := ⟨C02_f32 _, C02_f32 _, C02_f32 _⟩

example : writeBiff [wF32 tag!"RADI" 0x42340000]
    = .ok [8, 0, 0, 0, 0x52, 0x41, 0x44, 0x49, 0, 0, 0x34, 0x42,
           4, 0, 0, 0, 0x45, 0x4e, 0x44, 0x42] := by decide

end Vpin
