import Verif.Model.Wav
import Verif.Model.Version
/-
/repo/src/vpx/sound.rs

Whether a path names a wav file depends on `std::path::Path::extension`, whose separators differ between
platforms. It is the parameter `ext` of the definitions below (without the check for an empty extension,
which is modelled); `unixExt` is its value on Unix.
-/
namespace Vpin

/-- `OutputTarget`, /repo/src/vpx/sound.rs:17-20 -/
inductive OutputTarget where
  | Table
  | Backglass
  deriving DecidableEq, Repr

/-- `From<&OutputTarget> for u8`, /repo/src/vpx/sound.rs:22-29 -/
def OutputTarget.toU8 : OutputTarget → UInt8
  | .Table => 0
  | .Backglass => 1

/-- `From<u8> for OutputTarget`, /repo/src/vpx/sound.rs:31-39 -/
def OutputTarget.ofU8 (b : UInt8) : Res OutputTarget :=
  if b = 0 then .ok .Table else if b = 1 then .ok .Backglass else .error .panic

/-- `WaveForm`, /repo/src/vpx/sound.rs:268-285 -/
structure WaveForm where
  format_tag : UInt16
  channels : UInt16
  samples_per_sec : UInt32
  avg_bytes_per_sec : UInt32
  block_align : UInt16
  bits_per_sample : UInt16
  cb_size : UInt16
  deriving DecidableEq, Repr

/-- `WaveForm::new`, /repo/src/vpx/sound.rs:287-299 -/
def WaveForm.default : WaveForm := ⟨1, 1, 44100, 88200, 2, 16, 0⟩

/-- `SoundData`, /repo/src/vpx/sound.rs:107-120 -/
structure SoundData where
  name : Str
  path : Str
  wave_form : WaveForm
  data : Bytes
  internal_name : Str
  fade : UInt32
  volume : UInt32
  balance : UInt32
  output_target : OutputTarget
  deriving DecidableEq, Repr

/-- `Path::extension` on Unix (std), for the examples: the last component, unless it is `..`, and in it
what follows the last dot, unless that dot is the first character or there is none (used in /repo/src/vpx/sound.rs:406) -/
def unixExt (path : Str) : Option Str :=
  match ((path.splitOn '/').filter fun c => c ≠ [] ∧ c ≠ ['.']).getLast? with
  | none => none
  | some n =>
    if n = ['.', '.'] then none
    else
      match n.reverse.span (· ≠ '.') with
      | (_, []) => none
      | (_, [_]) => none
      | (e, _ :: _ :: _) => some e.reverse

/-- `str_path_ext`, /repo/src/vpx/sound.rs:404-409 -/
def strPathExt (ext : Str → Option Str) (path : Str) : Option Str :=
  match ext path with
  | some [] => none
  | o => o

/-- ASCII lower case of a character (used in /repo/src/vpx/sound.rs:415) -/
def asciiLower (c : Char) : Char := if 'A' ≤ c ∧ c ≤ 'Z' then Char.ofNat (c.toNat + 32) else c

/-- `str::eq_ignore_ascii_case` (std) (used in /repo/src/vpx/sound.rs:415) -/
def eqIgnoreAsciiCase (a b : Str) : Bool := a.map asciiLower == b.map asciiLower

/-- `is_wav`, /repo/src/vpx/sound.rs:411-418 -/
def isWav (ext : Str → Option Str) (path : Str) : Bool :=
  match strPathExt ext path with
  | some e => eqIgnoreAsciiCase e ['w', 'a', 'v']
  | none => true

/-- `read_wave_form`, /repo/src/vpx/sound.rs:441-458 -/
def readWaveForm : R WaveForm := do
  let format_tag ← getU16N
  let channels ← getU16N
  let samples_per_sec ← getU32N
  let avg_bytes_per_sec ← getU32N
  let block_align ← getU16N
  let bits_per_sample ← getU16N
  let cb_size ← getU16N
  return ⟨format_tag, channels, samples_per_sec, avg_bytes_per_sec, block_align, bits_per_sample,
    cb_size⟩

/-- `write_wave_form`, /repo/src/vpx/sound.rs:460-468 -/
def WaveForm.bytes (w : WaveForm) : Bytes :=
  le16 w.format_tag ++ (le16 w.channels ++ (le32 w.samples_per_sec ++ (le32 w.avg_bytes_per_sec ++
  (le16 w.block_align ++ (le16 w.bits_per_sample ++ le16 w.cb_size)))))

/-- value 3 of `sound::read`, /repo/src/vpx/sound.rs:359-365 -/
def readWaveFormIf (wav : Bool) : R WaveForm :=
  if wav then readWaveForm else pure WaveForm.default

/-- values 6 to 9 of `sound::read`, /repo/src/vpx/sound.rs:375-387: volume, balance, fade and volume
again -/
def readSoundTail (s : SoundData) : R SoundData := do
  let _ ← getU32N
  let balance ← getU32N
  let fade ← getU32N
  let volume ← getU32N
  return { s with volume := volume, balance := balance, fade := fade }

/-- `sound::read`, /repo/src/vpx/sound.rs:323-402 -/
def SoundData.readR (ext : Str → Option Str) (version : UInt32) : R SoundData := do
  let name ← getStringN
  let path ← getStringN
  let internal_name ← getStringN
  let wave_form ← readWaveFormIf (isWav ext path)
  let data ← getDataN
  let output_target ← R.ofRes (OutputTarget.ofU8 (← getU8N))
  let s : SoundData :=
    ⟨name, path, wave_form, data, internal_name, 0, 0, 0, output_target⟩
  if version < 1031 then return s
  else readSoundTail s

/-- reading a `Sound{i}` stream, /repo/src/vpx/mod.rs:885-901 -/
def SoundData.read (ext : Str → Option Str) (version : UInt32) (bs : Bytes) : Res SoundData :=
  match SoundData.readR ext version (Rd.new bs) with
  | .ok (s, _) => .ok s
  | .error e => .error e

/-- `sound::write`, /repo/src/vpx/sound.rs:420-439 -/
def SoundData.write (ext : Str → Option Str) (version : UInt32) (s : SoundData) : Res Bytes := do
  let name ← pString s.name
  let path ← pString s.path
  let internal ← pStringEmptyZero s.internal_name
  let data ← pLenData s.data
  return name ++ (path ++ (internal ++ ((if isWav ext s.path then s.wave_form.bytes else []) ++
    (data ++ ([s.output_target.toU8] ++
    (if 1031 ≤ version then le32 s.volume ++ (le32 s.balance ++ (le32 s.fade ++ le32 s.volume))
      else []))))))

/-- `write_wav_header2`, /repo/src/vpx/sound.rs:173-213. The two multiplications and the addition wrap
around here as in a release build; a debug build panics instead. -/
def SoundData.wavHeader (s : SoundData) : WavHeader where
  size := UInt32.ofNat s.data.length + 36
  fmt_size := if s.wave_form.format_tag = 1 then 16 else 18
  format_tag := s.wave_form.format_tag
  channels := s.wave_form.channels
  samples_per_sec := s.wave_form.samples_per_sec
  avg_bytes_per_sec := s.wave_form.samples_per_sec * s.wave_form.bits_per_sample.toUInt32
    * s.wave_form.channels.toUInt32 / 8
  block_align := s.wave_form.block_align
  bits_per_sample := s.wave_form.bits_per_sample
  extension_size := if s.wave_form.format_tag = 1 then none else some 0
  extension_fields := []
  pre_fmt_fields := []
  extra_fields := []
  data_size := if s.wave_form.format_tag = 1 then UInt32.ofNat s.data.length
    else s.wave_form.cb_size.toUInt32

/-- `write_sound`, /repo/src/vpx/sound.rs:228-237: the contents of the exported file -/
def SoundData.export (ext : Str → Option Str) (s : SoundData) : Bytes :=
  if isWav ext s.path then s.wavHeader.write ++ s.data else s.data

/-- `read_sound`, /repo/src/vpx/sound.rs:239-266: `s` is the sound made from the JSON description -/
def SoundData.import (ext : Str → Option Str) (bs : Bytes) (s : SoundData) : Res SoundData :=
  if isWav ext s.path then
    match readWavHeader bs with
    | .error e => .error e
    | .ok (h, rest) =>
      .ok { s with
        data := rest
        wave_form := ⟨h.format_tag, h.channels, h.samples_per_sec, h.avg_bytes_per_sec,
          h.block_align, h.bits_per_sample,
          if h.format_tag = 1 then 0 else h.data_size.toUInt16⟩ }
  else .ok { s with data := bs }

/-- `SoundDataJson`, /repo/src/vpx/sound.rs:122-139, with `from_sound_data` and `to_sound_data`
(:141-171): what remains of a sound in `sounds.json`, the wave form and the data coming from the
exported file. -/
def SoundData.described (s : SoundData) : SoundData :=
  { s with wave_form := WaveForm.default, data := [] }

end Vpin
