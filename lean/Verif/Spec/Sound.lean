import Verif.Model.Sound
import Verif.Spec.Text
/-
Which sounds the file format can hold, and which survive an export to a file.
-/
namespace Vpin

/-- Latin-1 text without NUL whose length fits in the length prefix -/
def SoundText (s : Str) : Prop := IsLatin1 s ∧ NulFree s ∧ s.length < 2 ^ 32

instance (s : Str) : Decidable (SoundText s) :=
  inferInstanceAs (Decidable ((∀ c ∈ s, _) ∧ (∀ c ∈ s, _) ∧ _))

structure SoundData.WF (s : SoundData) : Prop where
  name : SoundText s.name
  path : SoundText s.path
  internal_name : SoundText s.internal_name
  data : s.data.length < 2 ^ 32

/-- What a file of the given version keeps of a sound: the wave format of sounds that are WAV files, and
volume, balance and fade from version 1031 on; the rest has the values of a new sound. -/
def SoundData.kept (ext : Str → Option Str) (version : UInt32) (s : SoundData) : SoundData :=
  { s with
    wave_form := if isWav ext s.path then s.wave_form else ⟨1, 1, 44100, 88200, 2, 16, 0⟩
    volume := if 1031 ≤ version.toNat then s.volume else 0
    balance := if 1031 ≤ version.toNat then s.balance else 0
    fade := if 1031 ≤ version.toNat then s.fade else 0 }

/-- Sounds whose path has no extension, an empty one, or `wav` in any case, are stored with a wave format and exported
as WAV files. -/
def StoredAsWav (ext : Str → Option Str) (path : Str) : Prop :=
  ∀ e, ext path = some e → e ≠ [] →
    ∃ w a v, e = [w, a, v] ∧ (w = 'w' ∨ w = 'W') ∧ (a = 'a' ∨ a = 'A') ∧ (v = 'v' ∨ v = 'V')

/-- The byte rate is the one the other fields imply, and PCM sounds have no extra information. -/
structure WaveForm.Consistent (w : WaveForm) : Prop where
  rate : w.avg_bytes_per_sec.toNat
    = w.samples_per_sec.toNat * w.bits_per_sample.toNat * w.channels.toNat / 8
  small : w.samples_per_sec.toNat * w.bits_per_sample.toNat * w.channels.toNat < 2 ^ 32
  pcm : w.format_tag = 1 → w.cb_size = 0

def SoundData.sample : SoundData where
  name := "Drain é".toList
  path := "C:\\sounds\\drain.WAV".toList
  wave_form := ⟨1, 2, 44100, 176400, 4, 16, 0⟩
  data := [1, 2, 3, 4, 5, 6, 7, 8]
  internal_name := []
  fade := 3
  volume := 0xfffffff6
  balance := 7
  output_target := .Backglass

def SoundData.sampleOgg : SoundData :=
  { SoundData.sample with path := "a/drain.ogg".toList, wave_form := WaveForm.default }

def SoundData.sampleFloat : SoundData :=
  { SoundData.sample with
    path := "* Backglass Output *".toList
    wave_form := ⟨3, 1, 48000, 192000, 4, 32, 77⟩
    internal_name := "bgout".toList }

end Vpin
