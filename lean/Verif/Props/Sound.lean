import Verif.Lemmas.Sound
/-!
C16, C17, C18: sounds.
-/
namespace Vpin

/-- **C17.** A well formed WAV header, with any chunks before and behind the fmt chunk, is written and
read back equal, and the reader stops at the first byte of the sample data. -/
theorem C17_wav_roundtrip (h : WavHeader) (hw : h.WF) (data : Bytes) :
    readWavHeader (h.write ++ data) = .ok (h, data) :=
  readWavHeader_ok hw data

example : WavHeader.sample.WF := WavHeader.sample_wf
example : WavHeader.sampleStray.WF := WavHeader.sampleStray_wf
example : ∃ h : WavHeader, h.WF ∧ h.fmt_size = 19 := ⟨{ WavHeader.sample with
  fmt_size := 19
  extension_fields := [1] }, ⟨Or.inr (Or.inl (by decide)), WavHeader.sample_wf.pre,
    WavHeader.sample_wf.extra⟩, rfl⟩

/-- **C17.** Whatever bytes a header is read from, the header is well formed, and writing it gives back
exactly the bytes that were read, unless the fmt chunk has an odd size (whose padding byte is written as
zero). -/
theorem C17_wav_verbatim (bs data : Bytes) (h : WavHeader) (hr : readWavHeader bs = .ok (h, data))
    (he : h.fmt_size.toNat % 2 = 0) : h.write ++ data = bs := by
  obtain ⟨_, pad, hp, hb⟩ := readWavHeader_inv hr
  rw [he] at hp
  rw [hb, List.eq_nil_of_length_eq_zero hp, h.write_eq]
  simp [FmtChunk.pad, WavHeader.fmtChunk, he]

/-- **C17.** A header read from any bytes survives another round. -/
theorem C17_wav_reread (bs data : Bytes) (h : WavHeader) (hr : readWavHeader bs = .ok (h, data))
    (data' : Bytes) : h.WF ∧ readWavHeader (h.write ++ data') = .ok (h, data') :=
  ⟨(readWavHeader_inv hr).1, readWavHeader_ok (readWavHeader_inv hr).1 data'⟩

example : readWavHeader (WavHeader.sample.write ++ [1, 2, 3]) = .ok (WavHeader.sample, [1, 2, 3]) := by
  decide +kernel

/-- **C17**, outside the condition: an extension size behind a fmt chunk of 16 bytes that looks like
text is not recovered and the header is rejected. -/
theorem C17_stray_counterexample :
    ∃ h : WavHeader, h.fmt_size = 16 ∧ h.extension_size.isSome ∧
      readWavHeader (h.write ++ [1, 2, 3, 4]) = .error .io :=
  ⟨{ WavHeader.sampleStray with extension_size := some 0x4141 }, rfl, rfl, by decide +kernel⟩

/-- succeeds or reports an input error: no panic, and no running out of fuel -/
def IoErr {α : Type} (r : Res α) : Prop := ∀ e, r = .error e → e = .io

def NoFuel {α : Type} (g : BM α) : Prop := ∀ bs, IoErr (g bs)

theorem NoFuel.bind' {α β : Type} {g : BM α} {k : α → BM β} {bs : Bytes} (h1 : NoFuel g)
    (h2 : ∀ v b, g bs = .ok (v, b) → IoErr (k v b)) : IoErr ((g >>= k) bs) := by
  intro e' h
  cases hg : g bs with
  | error e =>
    have : (g >>= k) bs = .error e := by
      show (do let (a, s') ← g bs; k a s') = _
      rw [hg]; rfl
    rw [this] at h
    cases h
    exact h1 _ _ hg
  | ok p => exact h2 p.1 p.2 hg e' (by rw [← h, BM.bind_ok hg])

theorem NoFuel.bind {α β : Type} {g : BM α} {k : α → BM β} (h1 : NoFuel g)
    (h2 : ∀ v, NoFuel (k v)) : NoFuel (g >>= k) := fun _ => h1.bind' fun v b _ => h2 v b

theorem NoFuel.pure {α : Type} (v : α) : NoFuel (Pure.pure v : BM α) := by
  intro bs e h; cases h

theorem wvFail_nf {α : Type} : NoFuel (wvFail : BM α) := by
  intro bs e h; cases h; rfl

theorem wvTake_nf (n : Nat) : NoFuel (wvTake n) := by
  intro bs e h
  unfold wvTake at h
  split at h <;> cases h
  rfl

theorem wvU16_nf : NoFuel wvU16 := (wvTake_nf 2).bind fun _ => .pure _
theorem wvU32_nf : NoFuel wvU32 := (wvTake_nf 4).bind fun _ => .pure _

theorem wvExpect_nf (p : Bytes) : NoFuel (wvExpect p) :=
  (wvTake_nf _).bind fun v => by
    split
    · exact .pure _
    · exact wvFail_nf

theorem readFmtFields_nf (m : UInt32) : NoFuel (readFmtFields m) := by
  refine wvU16_nf.bind fun _ => wvU16_nf.bind fun _ => wvU32_nf.bind fun _ => wvU32_nf.bind fun _ =>
    wvU16_nf.bind fun _ => wvU16_nf.bind fun _ => ?_
  split
  · exact wvU16_nf.bind fun _ => (wvTake_nf _).bind fun _ => .pure _
  · exact .pure _

theorem readFmtChunk_nf (m : UInt32) : NoFuel (readFmtChunk m) := by
  unfold readFmtChunk
  split
  · exact wvFail_nf
  · refine (wvTake_nf _).bind fun c => ?_
    cases hf : readFmtFields m c with
    | error e =>
      intro bs e' h
      cases h
      exact readFmtFields_nf _ _ _ hf
    | ok p =>
      simp only
      split
      · exact .pure _
      · intro b
        dsimp only
        split
        · cases hu : wvU16 b with
          | error e => simp only; intro e' h; cases h; exact wvU16_nf _ _ hu
          | ok q => simp only; intro e' h; cases h
        · intro e' h; cases h

theorem wavLoop_fuel (size : UInt32) : ∀ (n : Nat) (s : WavState) (bs : Bytes), bs.length < n →
    IoErr (wavLoop size n s bs) := by
  intro n
  induction n with
  | zero => intro s bs h; omega
  | succ n ih =>
    intro s bs hl
    refine (wvTake_nf _).bind' fun id b1 h1 => ?_
    obtain ⟨e1, l1⟩ := wvTake_inv h1
    have hb1 : b1.length + 4 = bs.length := by rw [e1, List.length_append, l1]; omega
    split
    · exact wvFail_nf _
    refine wvU32_nf.bind' fun d b2 h2 => ?_
    have hb2 : b2.length + 4 = b1.length := by
      rw [wvU32_inv h2, List.length_append, le32_length]; omega
    split
    · cases s.fmt with
      | none => exact wvFail_nf _
      | some f => exact NoFuel.pure _ _
    split
    · cases s.fmt with
      | some f => exact wvFail_nf _
      | none =>
        refine (readFmtChunk_nf _).bind' fun f b3 h3 => ih _ _ ?_
        obtain ⟨_, _, pad, e3, _⟩ := readFmtChunk_inv h3
        have : b3.length ≤ b2.length := by rw [e3]; simp; omega
        omega
    · refine (wvTake_nf _).bind' fun pl b3 h3 => ?_
      obtain ⟨e3, _⟩ := wvTake_inv h3
      have : b3.length ≤ b2.length := by rw [e3]; simp
      split
      · exact ih _ _ (by omega)
      · exact ih _ _ (by omega)

/-- **C07.** Reading a WAV header from any bytes comes to an end, with a header or an input error,
never with a panic. -/
theorem C07_wav_read_terminates (bs : Bytes) (e : Err) (h : readWavHeader bs = .error e) :
    e = .io := by
  revert h
  revert e
  show IoErr (readWavHeader bs)
  unfold readWavHeader
  refine (wvExpect_nf _).bind' fun _ b1 h1 => wvU32_nf.bind' fun _ b2 h2 =>
    (wvExpect_nf _).bind' fun _ b3 h3 => wavLoop_fuel _ _ _ _ ?_
  rw [wvExpect_inv h1, wvU32_inv h2, wvExpect_inv h3]
  simp
  omega

/-- **C16.** A sound whose texts are representable is written and read back as what the file version
keeps of it. -/
theorem C16_sound_read_back (ext : Str → Option Str) (version : UInt32) (s : SoundData) (h : s.WF) :
    ∃ bs, s.write ext version = .ok bs ∧
      SoundData.read ext version bs = .ok (s.kept ext version) :=
  SoundData.read_write ext version h

/-- **C16.** Under the conditions that nothing of it is dropped, it reads back equal. -/
theorem C16_sound_roundtrip (ext : Str → Option Str) (version : UInt32) (s : SoundData) (h : s.WF)
    (hw : isWav ext s.path ∨ s.wave_form = WaveForm.default)
    (hv : 1031 ≤ version.toNat ∨ s.volume = 0 ∧ s.balance = 0 ∧ s.fade = 0) :
    ∃ bs, s.write ext version = .ok bs ∧ SoundData.read ext version bs = .ok s := by
  obtain ⟨bs, e1, e2⟩ := SoundData.read_write ext version h
  refine ⟨bs, e1, e2.trans ?_⟩
  congr 1
  have h1 : (if isWav ext s.path then s.wave_form else ⟨1, 1, 44100, 88200, 2, 16, 0⟩) = s.wave_form := by
    split
    · rfl
    · rename_i hn; rw [hw.resolve_left hn]; rfl
  unfold SoundData.kept
  rw [h1]
  rcases hv with hv | ⟨hv1, hv2, hv3⟩
  · simp only [if_pos hv]
  · have : ∀ x : UInt32, x = 0 → (if 1031 ≤ version.toNat then x else 0) = x := by
      intro x hx; split <;> simp [hx]
    rw [this _ hv1, this _ hv2, this _ hv3]

example : SoundData.sample.WF := ⟨by decide, by decide, by decide, by decide⟩
example : isWav unixExt SoundData.sample.path = true := by decide
example : isWav unixExt SoundData.sampleOgg.path = false := by decide
example : SoundData.sampleOgg.WF ∧ SoundData.sampleOgg.wave_form = WaveForm.default :=
  ⟨⟨by decide, by decide, by decide, by decide⟩, rfl⟩
/-- a path without an extension counts as a WAV file -/
example : isWav unixExt SoundData.sampleFloat.path = true := by decide
example : SoundData.sampleFloat.WF := ⟨by decide, by decide, by decide, by decide⟩

/-- **C16.** A sound read from any stream, of any version, is written and read again without loss. -/
theorem C16_sound_reread (ext : Str → Option Str) (version : UInt32) (bs : Bytes) (s : SoundData)
    (h : SoundData.read ext version bs = .ok s) :
    ∃ bs', s.write ext version = .ok bs' ∧ SoundData.read ext version bs' = .ok s := by
  obtain ⟨hw, hk⟩ := SoundData.read_inv h
  obtain ⟨bs', e1, e2⟩ := SoundData.read_write ext version hw
  exact ⟨bs', e1, by rw [e2, hk]⟩

/-- **C16**, what is lost: before version 1031 the volume of a sound does not survive. -/
theorem C16_old_version_loses_volume :
    ∃ s : SoundData, s.WF ∧ ∀ bs, s.write unixExt 1030 = .ok bs →
      ∃ s', SoundData.read unixExt 1030 bs = .ok s' ∧ s'.volume ≠ s.volume := by
  refine ⟨SoundData.sample, ⟨by decide, by decide, by decide, by decide⟩, ?_⟩
  intro bs hb
  obtain ⟨bs', e1, e2⟩ := SoundData.read_write unixExt 1030 (s := SoundData.sample)
    ⟨by decide, by decide, by decide, by decide⟩
  rw [hb] at e1
  cases e1
  exact ⟨_, e2, by decide⟩

/-- A header made for an exported sound is well formed. -/
theorem SoundData.wavHeader_wf (s : SoundData) : s.wavHeader.WF where
  fmt := by
    by_cases h : s.wave_form.format_tag = 1
    · exact Or.inl (by simp [SoundData.wavHeader, h])
    · exact Or.inr (Or.inl (by simp [SoundData.wavHeader, h]))
  pre := ⟨[], by simp, rfl⟩
  extra := ⟨[], by simp, rfl⟩

theorem rate_eq {w : WaveForm} (h : w.Consistent) :
    w.samples_per_sec * w.bits_per_sample.toUInt32 * w.channels.toUInt32 / 8
      = w.avg_bytes_per_sec := by
  apply UInt32.toNat_inj.1
  have h1 := h.small
  have hb : w.samples_per_sec.toNat * w.bits_per_sample.toNat < 2 ^ 32 ∨ w.channels.toNat = 0 := by
    by_cases hc : w.channels.toNat = 0
    · exact Or.inr hc
    · left
      exact Nat.lt_of_le_of_lt (Nat.le_mul_of_pos_right _ (Nat.pos_of_ne_zero hc)) h1
  rw [UInt32.toNat_div, UInt32.toNat_mul, UInt32.toNat_mul, h.rate]
  have e8 : (8 : UInt32).toNat = 8 := rfl
  rw [e8, UInt16.toNat_toUInt32, UInt16.toNat_toUInt32]
  rcases hb with hb | hb
  · rw [Nat.mod_eq_of_lt hb, Nat.mod_eq_of_lt h1]
  · rw [hb]; simp

/-- **C18.** Exporting any sound and importing the file into a sound with the same path restores the
sample data; for WAV sounds the wave format comes back with the byte rate recomputed and, for PCM,
without extra information. Other fields are those of the sound imported into. -/
theorem C18_export_import (ext : Str → Option Str) (s t : SoundData) (hp : t.path = s.path) :
    SoundData.import ext (s.export ext) t = .ok { t with
      data := s.data
      wave_form :=
        if isWav ext s.path then
          { s.wave_form with
            avg_bytes_per_sec := s.wavHeader.avg_bytes_per_sec
            cb_size := if s.wave_form.format_tag = 1 then 0 else s.wave_form.cb_size }
        else t.wave_form } := by
  unfold SoundData.import SoundData.export
  rw [hp]
  by_cases h : isWav ext s.path = true
  · simp only [h, if_true]
    rw [readWavHeader_ok s.wavHeader_wf]
    simp only [SoundData.wavHeader]
    congr 3
    by_cases hf : s.wave_form.format_tag = 1
    · simp [hf]
    · simp [hf]
  · simp only [h]
    rfl

/-- **C18.** If the byte rate of a WAV sound agrees with its other fields and PCM sounds have no extra
information, then a sound is restored completely from its description and the exported file. For other
sounds the wave format must be the default one, which is the only one ever read from a table. -/
theorem C18_sound_restored (ext : Str → Option Str) (s : SoundData)
    (h : if isWav ext s.path then s.wave_form.Consistent else s.wave_form = WaveForm.default) :
    SoundData.import ext (s.export ext) s.described = .ok s := by
  rw [C18_export_import ext s s.described rfl]
  by_cases hw : isWav ext s.path = true
  · rw [if_pos hw] at h
    simp only [hw, if_true]
    have h1 : s.wavHeader.avg_bytes_per_sec = s.wave_form.avg_bytes_per_sec := rate_eq h
    have h2 : (if s.wave_form.format_tag = 1 then 0 else s.wave_form.cb_size) = s.wave_form.cb_size := by
      split
      · rename_i hf; exact (h.pcm hf).symm
      · rfl
    rw [h1, h2]
    rfl
  · rw [if_neg hw] at h
    simp only [if_neg hw, SoundData.described, ← h]

example : SoundData.sample.wave_form.Consistent := ⟨by decide, by decide, by decide⟩
example : SoundData.sampleFloat.wave_form.Consistent := ⟨by decide, by decide, by decide⟩

/-- **C18**, outside the condition: a sound whose byte rate does not agree with its other fields comes
back different. -/
theorem C18_rate_counterexample :
    ∃ s : SoundData, s.WF ∧ ∃ s', SoundData.import unixExt (s.export unixExt) s.described = .ok s' ∧
      s' ≠ s := by
  refine ⟨{ SoundData.sample with wave_form := ⟨1, 2, 44100, 44100, 4, 16, 0⟩ },
    ⟨by decide, by decide, by decide, by decide⟩, _, C18_export_import unixExt _ _ rfl, by decide +kernel⟩

/-- **C18.** A sound whose path does not name a WAV file is exported verbatim. -/
theorem C18_other_verbatim (ext : Str → Option Str) (s : SoundData) (h : isWav ext s.path = false) :
    s.export ext = s.data := by
  unfold SoundData.export
  rw [h]; rfl

theorem asciiLower_eq {c d : Char} (hd : 'a' ≤ d ∧ d ≤ 'z') :
    asciiLower c = d ↔ c = d ∨ c.toNat + 32 = d.toNat := by
  have h1 : 97 ≤ d.toNat ∧ d.toNat ≤ 122 := hd
  unfold asciiLower
  split
  · next h =>
    have h2 : 65 ≤ c.toNat ∧ c.toNat ≤ 90 := h
    have hv : (c.toNat + 32).isValidChar := Or.inl (by omega)
    have e : (Char.ofNat (c.toNat + 32)).toNat = c.toNat + 32 := by
      generalize c.toNat + 32 = n at hv
      simp [Char.ofNat, hv, Char.toNat, Char.ofNatAux]
    constructor
    · intro h; right; rw [← h, e]
    · rintro (h | h)
      · subst h; omega
      · apply Char.toNat_inj.1; rw [e, h]
  · next h =>
    constructor
    · intro h; exact Or.inl h
    · rintro (h' | h')
      · exact h'
      · exfalso
        apply h
        have : 65 ≤ c.toNat ∧ c.toNat ≤ 90 := by omega
        exact this

theorem isWav_iff (ext : Str → Option Str) (path : Str) : isWav ext path = true ↔ StoredAsWav ext path := by
  have hw : ∀ c, asciiLower c = 'w' ↔ c = 'w' ∨ c = 'W' := fun c => by
    rw [asciiLower_eq (by decide)]
    exact or_congr_right ⟨fun h => Char.toNat_inj.1 (by have : 'w'.toNat = 119 := rfl
                                                        have : 'W'.toNat = 87 := rfl
                                                        omega), fun h => by rw [h]; rfl⟩
  have ha : ∀ c, asciiLower c = 'a' ↔ c = 'a' ∨ c = 'A' := fun c => by
    rw [asciiLower_eq (by decide)]
    exact or_congr_right ⟨fun h => Char.toNat_inj.1 (by have : 'a'.toNat = 97 := rfl
                                                        have : 'A'.toNat = 65 := rfl
                                                        omega), fun h => by rw [h]; rfl⟩
  have hv : ∀ c, asciiLower c = 'v' ↔ c = 'v' ∨ c = 'V' := fun c => by
    rw [asciiLower_eq (by decide)]
    exact or_congr_right ⟨fun h => Char.toNat_inj.1 (by have : 'v'.toNat = 118 := rfl
                                                        have : 'V'.toNat = 86 := rfl
                                                        omega), fun h => by rw [h]; rfl⟩
  have hl : ∀ e : Str, eqIgnoreAsciiCase e ['w', 'a', 'v'] = true ↔
      ∃ w a v, e = [w, a, v] ∧ (w = 'w' ∨ w = 'W') ∧ (a = 'a' ∨ a = 'A') ∧ (v = 'v' ∨ v = 'V') := by
    intro e
    unfold eqIgnoreAsciiCase
    rw [beq_iff_eq]
    have e0 : ['w', 'a', 'v'].map asciiLower = ['w', 'a', 'v'] := by decide
    rw [e0]
    constructor
    · intro h
      match e, h with
      | [w, a, v], h =>
        simp only [List.map_cons, List.map_nil, List.cons.injEq, and_true] at h
        exact ⟨w, a, v, rfl, (hw w).1 h.1, (ha a).1 h.2.1, (hv v).1 h.2.2⟩
      | [], h => cases h
      | [_], h => simp at h
      | [_, _], h => simp at h
      | _ :: _ :: _ :: _ :: _, h => simp at h
    · rintro ⟨w, a, v, rfl, h1, h2, h3⟩
      simp only [List.map_cons, List.map_nil, (hw w).2 h1, (ha a).2 h2, (hv v).2 h3]
  unfold isWav strPathExt StoredAsWav
  cases h : ext path with
  | none => simp
  | some e =>
    cases e with
    | nil => simp
    | cons c e =>
      simp only [hl]
      constructor
      · rintro h1 e' h2 -
        cases h2
        exact h1
      · intro h1
        exact h1 _ rfl (by simp)

/-- **C16.** Which sounds keep their wave format: those with extension `wav` in any case, and those without extension. -/
theorem C16_wave_format_kept (ext : Str → Option Str) (version : UInt32) (s : SoundData) (h : s.WF) :
    ∃ bs s', s.write ext version = .ok bs ∧ SoundData.read ext version bs = .ok s' ∧
      (StoredAsWav ext s.path → s'.wave_form = s.wave_form) ∧
      (¬ StoredAsWav ext s.path → s'.wave_form = ⟨1, 1, 44100, 88200, 2, 16, 0⟩) := by
  obtain ⟨bs, e1, e2⟩ := SoundData.read_write ext version h
  refine ⟨bs, _, e1, e2, fun hw => ?_, fun hw => ?_⟩
  · exact if_pos ((isWav_iff ext s.path).2 hw)
  · exact if_neg (fun hc => hw ((isWav_iff ext s.path).1 hc))

/-- the header of a WAV file with PCM samples, byte by byte: http://soundfile.sapp.org/doc/WaveFormat/ -/
def pcmFile (w : WaveForm) (data : Bytes) : Bytes :=
  riffId ++ le32 (UInt32.ofNat (data.length + 36)) ++ waveId ++ fmtId ++ le32 16 ++ le16 1 ++ le16 w.channels
    ++ le32 w.samples_per_sec ++ le32 w.avg_bytes_per_sec ++ le16 w.block_align ++ le16 w.bits_per_sample
    ++ dataId ++ le32 (UInt32.ofNat data.length) ++ data

/-- **C18.** What the exported file of a PCM sound looks like: the RIFF size is the length of the file without its
first eight bytes, the data size the length of the samples. -/
theorem C18_pcm_file (ext : Str → Option Str) (s : SoundData) (hw : StoredAsWav ext s.path)
    (hf : s.wave_form.format_tag = 1) (hc : s.wave_form.Consistent) :
    s.export ext = pcmFile s.wave_form s.data ∧
    (pcmFile s.wave_form s.data).length = s.data.length + 36 + 8 := by
  constructor
  · unfold SoundData.export
    rw [if_pos ((isWav_iff ext s.path).2 hw)]
    unfold WavHeader.write WavHeader.fmtPayload SoundData.wavHeader pcmFile
    have hs : UInt32.ofNat s.data.length + 36 = UInt32.ofNat (s.data.length + 36) := by
      rw [UInt32.ofNat_add]; rfl
    dsimp only
    rw [hs, rate_eq hc, hf]
    simp only [if_true, List.append_assoc, List.nil_append]
    rfl
  · unfold pcmFile
    simp only [List.length_append, le32_length, le16_length]
    have : riffId.length = 4 ∧ waveId.length = 4 ∧ fmtId.length = 4 ∧ dataId.length = 4 := ⟨rfl, rfl, rfl, rfl⟩
    omega

/-- **C18**, outside the condition: for other formats the sizes in the exported file are wrong. The size in the RIFF
header is two bytes short and the size in the data header is that of the extra information. -/
theorem C18_other_format_counterexample : ∃ s : SoundData, s.WF ∧ s.wave_form.Consistent ∧
    (readWavHeader (s.export unixExt)).map (fun x => (x.1.size.toNat + 8, (s.export unixExt).length,
      x.1.data_size.toNat, x.2.length)) = .ok (47, 49, 22, 3) := by
  refine ⟨{ SoundData.sampleFloat with data := [1, 2, 3], wave_form := { SoundData.sampleFloat.wave_form with cb_size := 22 } }, ?_, ?_, ?_⟩
  · exact ⟨by decide, by decide, by decide, by decide⟩
  · exact ⟨by decide, by decide, by decide⟩
  · decide +kernel

example : StoredAsWav unixExt SoundData.sample.path ∧ StoredAsWav unixExt SoundData.sampleFloat.path ∧
    ¬ StoredAsWav unixExt SoundData.sampleOgg.path := by
  rw [← isWav_iff, ← isWav_iff, ← isWav_iff]; decide
example : SoundData.sample.wave_form.format_tag = 1 := rfl

end Vpin
