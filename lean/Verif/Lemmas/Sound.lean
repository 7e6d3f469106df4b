import Verif.Spec.Sound
import Verif.Lemmas.Wav
import Verif.Lemmas.Inv
namespace Vpin

/-- reads a value and consumes exactly its bytes, whatever the bookkeeping of the record -/
def RTQ {α : Type} (g : R α) (p : Bytes) (v : α) : Prop :=
  ∀ rest b tag w raw, ∃ b', g ⟨p ++ rest, b, tag, w, raw⟩ = .ok (v, ⟨rest, b', tag, w, raw⟩)

theorem RTN.q {α : Type} {g : R α} {p : Bytes} {v : α} (h : RTN g p v) : RTQ g p v :=
  fun rest b tag w raw => ⟨b, h rest b tag w raw⟩

theorem RTQ.bind {α β : Type} {g : R α} {k : α → R β} {p q : Bytes} {v : α} {u : β}
    (hg : RTQ g p v) (hk : RTQ (k v) q u) : RTQ (g >>= k) (p ++ q) u := by
  intro rest b tag w raw
  obtain ⟨b1, h1⟩ := hg (q ++ rest) b tag w raw
  obtain ⟨b2, h2⟩ := hk rest b1 tag w raw
  rw [List.append_assoc, R.bind_ok h1]
  exact ⟨b2, h2⟩

theorem RTQ.pure {α : Type} (v : α) : RTQ (Pure.pure v) [] v := (RTN.pure v).q

theorem getDataN_rtq (d : Bytes) (h : d.length < 2 ^ 32) :
    RTQ getDataN (le32 (UInt32.ofNat d.length) ++ d) d := by
  intro rest b tag w raw
  refine ⟨0, ?_⟩
  unfold getDataN
  rw [List.append_assoc, R.bind_ok (getU32N_rt _ _ _ _ _ _),
    R.bind_ok (takeN_rt d _ (by rw [ofNat_toNat_u32 h]) _ _ _ _ _)]
  rfl

theorem SoundText.enc {s : Str} (h : SoundText s) :
    ∃ d, encodeLatin1 s = .ok d ∧ d.length = s.length ∧ 0 ∉ d := by
  obtain ⟨d, hd⟩ := (encodeLatin1_ok_iff s).2 h.1
  exact ⟨d, hd, encodeLatin1_length hd, nulFree_encode hd h.2.1⟩

theorem soundText_rt {s : Str} (h : SoundText s) :
    ∃ p, pString s = .ok p ∧ RTQ getStringN p s := by
  obtain ⟨d, hd, hl, h0⟩ := h.enc
  have hlen : d.length < 2 ^ 32 := by rw [hl]; exact h.2.2
  refine ⟨le32 (UInt32.ofNat d.length) ++ d, by simp only [pString, hd, pLenData, if_pos hlen], ?_⟩
  have := getStringN_rt_raw d hlen
  rw [cutNul_eq_self h0, decodeLatin1_of_encode hd] at this
  exact this.q

theorem soundTextZ_rt {s : Str} (h : SoundText s) :
    ∃ p, pStringEmptyZero s = .ok p ∧ RTQ getStringN p s := by
  unfold pStringEmptyZero
  cases s with
  | nil =>
    refine ⟨_, rfl, ?_⟩
    exact (getStringN_rt_raw [0] (by decide)).q
  | cons c s =>
    rw [if_neg (by simp)]
    exact soundText_rt h

theorem OutputTarget.rt (o : OutputTarget) : OutputTarget.ofU8 o.toU8 = .ok o := by
  cases o <;> rfl

theorem readWaveForm_rt (w : WaveForm) : RTQ readWaveForm w.bytes w := by
  have : w.bytes = le16 w.format_tag ++ (le16 w.channels ++ (le32 w.samples_per_sec ++
    (le32 w.avg_bytes_per_sec ++ (le16 w.block_align ++ (le16 w.bits_per_sample ++
    (le16 w.cb_size ++ [])))))) := by
    rw [List.append_nil]; rfl
  rw [this]
  unfold readWaveForm
  exact (getU16N_rt _).q.bind <| (getU16N_rt _).q.bind <| (getU32N_rt _).q.bind <|
    (getU32N_rt _).q.bind <| (getU16N_rt _).q.bind <| (getU16N_rt _).q.bind <|
    (getU16N_rt _).q.bind <| RTQ.pure w

theorem readSoundTail_rt (s : SoundData) (v b f : UInt32) :
    RTQ (readSoundTail s) (le32 v ++ (le32 b ++ (le32 f ++ le32 v)))
      { s with volume := v, balance := b, fade := f } := by
  rw [← List.append_nil (le32 v ++ (le32 b ++ (le32 f ++ le32 v)))]
  simp only [List.append_assoc]
  unfold readSoundTail
  exact (getU32N_rt _).q.bind <| (getU32N_rt _).q.bind <| (getU32N_rt _).q.bind <|
    (getU32N_rt _).q.bind <| RTQ.pure _

theorem u32_lt_iff (v : UInt32) : v < 1031 ↔ ¬ 1031 ≤ v.toNat := by
  rw [UInt32.lt_iff_toNat_lt]
  show v.toNat < 1031 ↔ _
  omega

theorem u32_le_iff (v : UInt32) : 1031 ≤ v ↔ 1031 ≤ v.toNat := by
  rw [UInt32.le_iff_toNat_le]
  rfl

theorem SoundData.read_write (ext : Str → Option Str) (version : UInt32) {s : SoundData}
    (h : s.WF) : ∃ bs, s.write ext version = .ok bs ∧
      SoundData.read ext version bs = .ok (s.kept ext version) := by
  obtain ⟨p1, e1, r1⟩ := soundText_rt h.name
  obtain ⟨p2, e2, r2⟩ := soundText_rt h.path
  obtain ⟨p3, e3, r3⟩ := soundTextZ_rt h.internal_name
  have e4 : pLenData s.data = .ok (le32 (UInt32.ofNat s.data.length) ++ s.data) := by
    simp only [pLenData, if_pos h.data]
  have r4 := getDataN_rtq s.data h.data
  refine ⟨_, by unfold SoundData.write; rw [e1, e2, e3, e4]; rfl, ?_⟩
  have key : RTQ (SoundData.readR ext version) (p1 ++ (p2 ++ (p3 ++
      ((if isWav ext s.path then s.wave_form.bytes else []) ++
    ((le32 (UInt32.ofNat s.data.length) ++ s.data) ++ ([s.output_target.toU8] ++
    ([] ++ (if 1031 ≤ version then le32 s.volume ++ (le32 s.balance ++ (le32 s.fade ++ le32 s.volume))
      else [])))))))) (s.kept ext version) := by
    unfold SoundData.readR
    refine r1.bind <| r2.bind <| r3.bind <| RTQ.bind
      (v := if isWav ext s.path then s.wave_form else WaveForm.default) ?_ <| r4.bind <|
      (getU8N_rt _).q.bind <| RTQ.bind (v := s.output_target) ?_ ?_
    · by_cases hw : isWav ext s.path = true
      · rw [hw]; exact readWaveForm_rt _
      · have hw : isWav ext s.path = false := by simpa using hw
        rw [hw]; exact RTQ.pure _
    · rw [OutputTarget.rt]; exact RTQ.pure _
    · by_cases hv : 1031 ≤ version.toNat
      · rw [if_neg (by rw [u32_lt_iff]; simpa using hv), if_pos ((u32_le_iff version).2 hv)]
        have := readSoundTail_rt ⟨s.name, s.path, if isWav ext s.path then s.wave_form else
          WaveForm.default, s.data, s.internal_name, 0, 0, 0, s.output_target⟩ s.volume s.balance
          s.fade
        unfold SoundData.kept
        simp only [if_pos hv]
        exact this
      · rw [if_pos ((u32_lt_iff version).2 hv), if_neg (show ¬ 1031 ≤ version by rw [u32_le_iff]; exact hv)]
        unfold SoundData.kept
        simp only [if_neg hv]
        exact RTQ.pure _
  obtain ⟨b', hk⟩ := key [] 0 0 true []
  rw [List.append_nil] at hk
  unfold SoundData.read Rd.new
  simp only [List.nil_append] at hk
  rw [hk]

theorem getStringN_inv {r r' : Rd} {s : Str} (h : getStringN r = .ok (s, r')) : SoundText s := by
  obtain ⟨n, r1, h1, h2⟩ := R.bind_inv h
  obtain ⟨d, r2, h3, h4⟩ := R.bind_inv h2
  obtain ⟨rfl, rfl⟩ := R.pure_inv h4
  have b := takeCut_inv h3
  refine ⟨isLatin1_decode d, nulFree_decode b.2.1, ?_⟩
  rw [decodeLatin1_length]
  have := n.toNat_lt
  omega

theorem getDataN_inv {r r' : Rd} {d : Bytes} (h : getDataN r = .ok (d, r')) : d.length < 2 ^ 32 := by
  obtain ⟨n, r1, h1, h2⟩ := R.bind_inv h
  obtain ⟨d', r2, h3, h4⟩ := R.bind_inv h2
  obtain ⟨_, r3, h5, h6⟩ := R.bind_inv h4
  obtain ⟨rfl, rfl⟩ := R.pure_inv h6
  have : d.length ≤ n.toNat := by
    unfold takeN at h3
    split at h3
    · cases h3; simp; omega
    · cases h3
  have := n.toNat_lt
  omega

theorem SoundData.read_inv {ext : Str → Option Str} {version : UInt32} {bs : Bytes} {s : SoundData}
    (h : SoundData.read ext version bs = .ok s) : s.WF ∧ s.kept ext version = s := by
  unfold SoundData.read at h
  split at h
  · rename_i s' r hr
    cases h
    obtain ⟨v1, r1, h1, hr⟩ := R.bind_inv hr
    obtain ⟨v2, r2, h2, hr⟩ := R.bind_inv hr
    obtain ⟨v3, r3, h3, hr⟩ := R.bind_inv hr
    obtain ⟨v4, r4, h4, hr⟩ := R.bind_inv hr
    obtain ⟨v5, r5, h5, hr⟩ := R.bind_inv hr
    obtain ⟨v6, r6, h6, hr⟩ := R.bind_inv hr
    obtain ⟨v7, r7, h7, hr⟩ := R.bind_inv hr
    have hw : isWav ext v2 ≠ true → v4 = WaveForm.default := by
      intro hn
      have hn : isWav ext v2 = false := by simpa using hn
      rw [hn] at h4
      exact (R.pure_inv h4).1
    have hn : v4 = if isWav ext v2 = true then v4 else ⟨1, 1, 44100, 88200, 2, 16, 0⟩ := by
      split
      · rfl
      · rename_i hn; exact hw hn
    by_cases hv : version < 1031
    · simp only [if_pos hv] at hr
      obtain ⟨rfl, rfl⟩ := R.pure_inv hr
      have hv' := (u32_lt_iff version).1 hv
      refine ⟨⟨getStringN_inv h1, getStringN_inv h2, getStringN_inv h3, getDataN_inv h5⟩, ?_⟩
      simp only [SoundData.kept, if_neg hv', ← hn]
    · simp only [if_neg hv] at hr
      obtain ⟨w1, q1, k1, hr⟩ := R.bind_inv hr
      obtain ⟨w2, q2, k2, hr⟩ := R.bind_inv hr
      obtain ⟨w3, q3, k3, hr⟩ := R.bind_inv hr
      obtain ⟨w4, q4, k4, hr⟩ := R.bind_inv hr
      obtain ⟨rfl, rfl⟩ := R.pure_inv hr
      have hv' : 1031 ≤ version.toNat := by
        by_cases hc : 1031 ≤ version.toNat
        · exact hc
        · exact absurd ((u32_lt_iff version).2 hc) hv
      refine ⟨⟨getStringN_inv h1, getStringN_inv h2, getStringN_inv h3, getDataN_inv h5⟩, ?_⟩
      simp only [SoundData.kept, if_pos hv', ← hn]
  · cases h

end Vpin
