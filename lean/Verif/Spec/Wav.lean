import Verif.Model.Wav
/-
The layout of a WAV header, independent of how it is read.
-/
namespace Vpin

/-- A RIFF chunk: a four byte id of printable ASCII, a size, and that many bytes, padded to an even
number. -/
structure Chunk where
  id : Bytes
  size : UInt32
  payload : Bytes

def Chunk.bytes (c : Chunk) : Bytes := c.id ++ (le32 c.size ++ c.payload)

/-- four bytes between space and tilde -/
def ChunkId (bs : Bytes) : Prop := bs.length = 4 ∧ ∀ b ∈ bs, 0x20 ≤ b ∧ b ≤ 0x7e

/-- A chunk that is neither `fmt ` nor `data`. -/
def Chunk.WF (c : Chunk) : Prop :=
  ChunkId c.id ∧ c.id ≠ [0x66, 0x6d, 0x74, 0x20] ∧ c.id ≠ [0x64, 0x61, 0x74, 0x61] ∧
  c.payload.length = (if c.size.toNat % 2 = 0 then c.size.toNat else c.size.toNat + 1)

/-- a sequence of such chunks -/
def Chunks (bs : Bytes) : Prop := ∃ cs : List Chunk, (∀ c ∈ cs, c.WF) ∧ bs = cs.flatMap Chunk.bytes

/-- The three shapes of the fmt chunk: 16 bytes without extension size; 18 bytes or more with one and
the fields the size leaves room for; 16 bytes followed by a stray extension size that cannot be mistaken
for the beginning of a chunk id. -/
def WavHeader.FmtOK (h : WavHeader) : Prop :=
  (h.fmt_size.toNat = 16 ∧ h.extension_size = none ∧ h.extension_fields = []) ∨
  (18 ≤ h.fmt_size.toNat ∧ h.extension_size.isSome ∧
    h.extension_fields.length = h.fmt_size.toNat - 18) ∨
  (h.fmt_size.toNat = 16 ∧ h.extension_fields = [] ∧
    ∃ e, h.extension_size = some e ∧ ¬ ∀ b ∈ le16 e, 0x20 ≤ b ∧ b ≤ 0x7e)

structure WavHeader.WF (h : WavHeader) : Prop where
  fmt : h.FmtOK
  pre : Chunks h.pre_fmt_fields
  extra : Chunks h.extra_fields

/-- a header with a JUNK chunk of odd size before the fmt chunk, extension fields and a fact chunk -/
def WavHeader.sample : WavHeader where
  size := 1234
  fmt_size := 20
  format_tag := 3
  channels := 2
  samples_per_sec := 44100
  avg_bytes_per_sec := 352800
  block_align := 8
  bits_per_sample := 32
  extension_size := some 2
  extension_fields := [7, 8]
  pre_fmt_fields := [0x4a, 0x55, 0x4e, 0x4b, 3, 0, 0, 0, 1, 2, 3, 0]
  extra_fields := [0x66, 0x61, 0x63, 0x74, 2, 0, 0, 0, 9, 9]
  data_size := 4

/-- a header as written by old versions: extension size behind a fmt chunk of 16 bytes -/
def WavHeader.sampleStray : WavHeader where
  size := 40
  fmt_size := 16
  format_tag := 3
  channels := 1
  samples_per_sec := 22050
  avg_bytes_per_sec := 88200
  block_align := 4
  bits_per_sample := 32
  extension_size := some 0
  extension_fields := []
  pre_fmt_fields := []
  extra_fields := []
  data_size := 4

theorem WavHeader.sample_wf : WavHeader.sample.WF where
  fmt := Or.inr (Or.inl (by decide))
  pre := ⟨[⟨[0x4a, 0x55, 0x4e, 0x4b], 3, [1, 2, 3, 0]⟩], by simp [Chunk.WF, ChunkId], by decide⟩
  extra := ⟨[⟨[0x66, 0x61, 0x63, 0x74], 2, [9, 9]⟩], by simp [Chunk.WF, ChunkId], by decide⟩

theorem WavHeader.sampleStray_wf : WavHeader.sampleStray.WF where
  fmt := Or.inr (Or.inr ⟨rfl, rfl, 0, rfl, by decide⟩)
  pre := ⟨[], by simp, rfl⟩
  extra := ⟨[], by simp, rfl⟩

end Vpin
