import Verif.Model.Material
/-
/repo/src/vpx/wav.rs: the header of WAV files.
-/
namespace Vpin

/-- `WavHeader`, /repo/src/vpx/wav.rs:18-37 -/
structure WavHeader where
  size : UInt32
  fmt_size : UInt32
  format_tag : UInt16
  channels : UInt16
  samples_per_sec : UInt32
  avg_bytes_per_sec : UInt32
  block_align : UInt16
  bits_per_sample : UInt16
  extension_size : Option UInt16
  extension_fields : Bytes
  pre_fmt_fields : Bytes
  extra_fields : Bytes
  data_size : UInt32
  deriving DecidableEq, Repr

/-- `FmtChunk`, /repo/src/vpx/wav.rs:107-118 -/
structure FmtChunk where
  fmt_size : UInt32
  format_tag : UInt16
  channels : UInt16
  samples_per_sec : UInt32
  avg_bytes_per_sec : UInt32
  block_align : UInt16
  bits_per_sample : UInt16
  extension_size : Option UInt16
  extension_fields : Bytes
  deriving DecidableEq, Repr

/-- `riffId`, /repo/src/vpx/wav.rs:80 -/
def riffId : Bytes := [0x52, 0x49, 0x46, 0x46]
/-- `waveId`, /repo/src/vpx/wav.rs:82 -/
def waveId : Bytes := [0x57, 0x41, 0x56, 0x45]
/-- `fmtId`, /repo/src/vpx/wav.rs:85 -/
def fmtId : Bytes := [0x66, 0x6d, 0x74, 0x20]
/-- `dataId`, /repo/src/vpx/wav.rs:103 -/
def dataId : Bytes := [0x64, 0x61, 0x74, 0x61]

/-- the payload of the fmt chunk, /repo/src/vpx/wav.rs:84-98 -/
def WavHeader.fmtPayload (h : WavHeader) : Bytes :=
  le16 h.format_tag ++ (le16 h.channels ++ (le32 h.samples_per_sec ++ (le32 h.avg_bytes_per_sec ++
  (le16 h.block_align ++ (le16 h.bits_per_sample ++
  ((match h.extension_size with
    | some e => le16 e ++ h.extension_fields
    | none => []) ++ (if h.fmt_size.toNat % 2 = 1 then [0] else [])))))))

/-- `write_wav_header`, /repo/src/vpx/wav.rs:79-105 -/
def WavHeader.write (h : WavHeader) : Bytes :=
  riffId ++ (le32 h.size ++ (waveId ++ (h.pre_fmt_fields ++ (fmtId ++ (le32 h.fmt_size ++
  (h.fmtPayload ++ (h.extra_fields ++ (dataId ++ le32 h.data_size))))))))

/-- `read_bytes_vec` / `read_bytes`: too few bytes are an input error, /repo/src/vpx/wav.rs:253-275 -/
def wvTake (n : Nat) : BM Bytes := fun bs =>
  if n ≤ bs.length then .ok (bs.take n, bs.drop n) else .error .io

/-- `read_u16_le`, /repo/src/vpx/wav.rs:277-279 -/
def wvU16 : BM UInt16 := do return ofLe16 (← wvTake 2)
/-- `read_u32_le`, /repo/src/vpx/wav.rs:281-283 -/
def wvU32 : BM UInt32 := do return ofLe32 (← wvTake 4)

/-- an error, /repo/src/vpx/wav.rs:238-240 -/
def wvFail {α : Type} : BM α := fun _ => .error .io

/-- `expect_bytes`, /repo/src/vpx/wav.rs:285-295 -/
def wvExpect (expected : Bytes) : BM Unit := do
  let bs ← wvTake expected.length
  if bs = expected then pure () else wvFail

/-- `is_chunk_id`: printable ASCII, /repo/src/vpx/wav.rs:233-236 -/
def isChunkId (bs : Bytes) : Bool := bs.all fun b => 0x20 ≤ b && b ≤ 0x7e

/-- `looks_like_stray_extension_size`, /repo/src/vpx/wav.rs:297-307 -/
def strayExtension (bs : Bytes) : Bool :=
  if bs.length < 6 then false
  else !isChunkId (bs.take 4) && isChunkId ((bs.drop 2).take 4)

/-- `chunk_size.next_multiple_of(2)` (used in /repo/src/vpx/wav.rs:174) -/
def padded (n : UInt32) : Nat := n.toNat + n.toNat % 2

/-- the part of `read_fmt_chunk` that reads from the chunk itself, /repo/src/vpx/wav.rs:196-216; for a
fmt size of 16 the caller adds the stray extension size -/
def readFmtFields (fmtSize : UInt32) : BM FmtChunk := do
  let format_tag ← wvU16
  let channels ← wvU16
  let samples_per_sec ← wvU32
  let avg_bytes_per_sec ← wvU32
  let block_align ← wvU16
  let bits_per_sample ← wvU16
  if 18 ≤ fmtSize.toNat then
    let e ← wvU16
    let fields ← wvTake (fmtSize.toNat - 18)
    pure ⟨fmtSize, format_tag, channels, samples_per_sec, avg_bytes_per_sec, block_align,
      bits_per_sample, some e, fields⟩
  else
    pure ⟨fmtSize, format_tag, channels, samples_per_sec, avg_bytes_per_sec, block_align,
      bits_per_sample, none, []⟩

/-- `read_fmt_chunk`, /repo/src/vpx/wav.rs:188-231 -/
def readFmtChunk (fmtSize : UInt32) : BM FmtChunk := do
  if fmtSize.toNat ≠ 16 ∧ fmtSize.toNat < 18 then wvFail
  else
    let chunk ← wvTake (padded fmtSize)
    match readFmtFields fmtSize chunk with
    | .error e => fun _ => .error e
    | .ok (f, _) =>
      if 18 ≤ fmtSize.toNat then pure f
      else fun bs =>
        if strayExtension bs then
          match wvU16 bs with
          | .error e => .error e
          | .ok (e, bs') => .ok ({ f with extension_size := some e }, bs')
        else .ok (f, bs)

/-- local variables of the chunk loop, /repo/src/vpx/wav.rs:129-131 -/
structure WavState where
  fmt : Option FmtChunk
  pre : Bytes
  extra : Bytes

/-- the loop over the chunks, /repo/src/vpx/wav.rs:133-185; the first argument bounds the number of
iterations -/
def wavLoop (size : UInt32) : Nat → WavState → BM WavHeader
  | 0, _ => fun _ => .error .fuel
  | n + 1, s => do
    let id ← wvTake 4
    if isChunkId id = false then wvFail
    else
      let chunkSize ← wvU32
      if id = dataId then
        match s.fmt with
        | none => wvFail
        | some f =>
          pure
            { size := size, fmt_size := f.fmt_size, format_tag := f.format_tag,
              channels := f.channels, samples_per_sec := f.samples_per_sec,
              avg_bytes_per_sec := f.avg_bytes_per_sec, block_align := f.block_align,
              bits_per_sample := f.bits_per_sample, extension_size := f.extension_size,
              extension_fields := f.extension_fields, pre_fmt_fields := s.pre,
              extra_fields := s.extra, data_size := chunkSize }
      else if id = fmtId then
        match s.fmt with
        | some _ => wvFail
        | none => do
          let f ← readFmtChunk chunkSize
          wavLoop size n { s with fmt := some f }
      else do
        let payload ← wvTake (padded chunkSize)
        let bytes := id ++ (le32 chunkSize ++ payload)
        if s.fmt.isSome then wavLoop size n { s with extra := s.extra ++ bytes }
        else wavLoop size n { s with pre := s.pre ++ bytes }

/-- `read_wav_header`, /repo/src/vpx/wav.rs:124-186; the bytes left are the sample data -/
def readWavHeader : BM WavHeader := fun bs =>
  (do
    wvExpect riffId
    let size ← wvU32
    wvExpect waveId
    wavLoop size (bs.length + 1) ⟨none, [], []⟩) bs

end Vpin
