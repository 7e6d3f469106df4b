import Verif.Props.Framing
import Verif.Props.Primitives
import Verif.Lemmas.Structs
/-
How fields are laid out in the file.
-/
namespace Vpin

/-- the four bytes of a number, lowest first -/
def wordBytes (x : UInt32) : Bytes :=
  [UInt8.ofNat x.toNat, UInt8.ofNat (x.toNat / 256), UInt8.ofNat (x.toNat / 65536), UInt8.ofNat (x.toNat / 16777216)]

theorem le32_word (x : UInt32) : le32 x = wordBytes x := by
  have h : ∀ k, UInt8.ofNat (k % 256) = UInt8.ofNat k := fun k => by
    apply UInt8.toNat_inj.1
    simp
  unfold le32 byteAt wordBytes
  simp only [h, Nat.pow_zero, Nat.div_one, Nat.reducePow]

theorem written_one (n p : Bytes) (hn : RecordName n) (he : n ≠ endbName) (hp : p.length < 4294967292) :
    writeBiff [wData (nameTag n) p] = .ok (recordBytes n p ++ recordBytes endbName []) := by
  have := C01_written_bytes [(n, p)] (by
    intro r hr
    cases List.mem_singleton.1 hr
    exact ⟨hn, he, by show 4 + p.length < _; omega⟩)
  rw [List.map_singleton] at this
  rw [this]
  simp [streamBytes]

/-- **C02.** What a field looks like in the file: a switch is the number 0 or 1, a number has four bytes, lowest first,
vectors have their coordinates in order, and the padded form has four zero bytes behind them. -/
theorem C02_layout (n : Bytes) (hn : RecordName n) (he : n ≠ endbName) :
    (∀ v : Bool, writeBiff [wBool (nameTag n) v]
      = .ok (recordBytes n [if v then 1 else 0, 0, 0, 0] ++ recordBytes endbName [])) ∧
    (∀ v : UInt32, writeBiff [wU32 (nameTag n) v] = .ok (recordBytes n (wordBytes v) ++ recordBytes endbName [])) ∧
    (∀ v : Int32, writeBiff [wI32 (nameTag n) v]
      = .ok (recordBytes n (wordBytes v.toUInt32) ++ recordBytes endbName [])) ∧
    (∀ v : F32, writeBiff [wF32 (nameTag n) v] = .ok (recordBytes n (wordBytes v) ++ recordBytes endbName [])) ∧
    (∀ v : Vertex2D, writeBiff [wVertex2D (nameTag n) v]
      = .ok (recordBytes n (wordBytes v.x ++ wordBytes v.y) ++ recordBytes endbName [])) ∧
    (∀ v : Vertex3D, writeBiff [wVertex3D (nameTag n) v]
      = .ok (recordBytes n (wordBytes v.x ++ wordBytes v.y ++ wordBytes v.z ++ [0, 0, 0, 0])
          ++ recordBytes endbName [])) ∧
    (∀ v : Vertex3D, writeBiff [wVertex3DUnpadded (nameTag n) v]
      = .ok (recordBytes n (wordBytes v.x ++ wordBytes v.y ++ wordBytes v.z) ++ recordBytes endbName [])) ∧
    (∀ v : Color, writeBiff [wColor (nameTag n) v]
      = .ok (recordBytes n [v.r, v.g, v.b, v.unused] ++ recordBytes endbName [])) := by
  refine ⟨fun v => ?_, fun v => ?_, fun v => ?_, fun v => ?_, fun v => ?_, fun v => ?_, fun v => ?_, fun v => ?_⟩
  · have : wBool (nameTag n) v = wData (nameTag n) [if v then 1 else 0, 0, 0, 0] := by cases v <;> rfl
    rw [this, written_one n _ hn he (by simp)]
  all_goals
    rw [← written_one n _ hn he (by simp [wordBytes])]
    simp only [wU32, wI32, wF32, wVertex2D, wVertex3D, wVertex3DUnpadded, wColor, wData, le32_word, Color.bytes]
    try rfl

/-- **C02.** Vectors of four components: the components in order, four bytes each, and they are read back. -/
theorem C02_vertex4d (v : Vertex4D) : FieldSurvives wVertex4D getVertex4D v ∧
    ∀ n, RecordName n → n ≠ endbName → writeBiff [wVertex4D (nameTag n) v]
      = .ok (recordBytes n (wordBytes v.x ++ wordBytes v.y ++ wordBytes v.z ++ wordBytes v.w)
          ++ recordBytes endbName []) := by
  refine ⟨vertex4d_rt.survives trivial, fun n hn he => ?_⟩
  rw [← written_one n _ hn he (by simp [wordBytes])]
  simp only [wVertex4D, wData, le32_word]
  try rfl

/-- a plane of reflection with a NaN and a minus zero -/
example : writeBiff [wVertex4D tag!"RPLA" ⟨0x7fc00001, 0x80000000, 0x3f800000, 0x42c80000⟩]
    = .ok [20, 0, 0, 0, 0x52, 0x50, 0x4c, 0x41, 1, 0, 0xc0, 0x7f, 0, 0, 0, 0x80, 0, 0, 0x80, 0x3f, 0, 0, 0xc8, 0x42,
           4, 0, 0, 0, 0x45, 0x4e, 0x44, 0x42] := by decide

example : RecordName [0x56, 0x43, 0x45, 0x4e] ∧ ([0x56, 0x43, 0x45, 0x4e] : Bytes) ≠ endbName := by decide

end Vpin
