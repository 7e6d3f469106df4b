import Verif.Lemmas.Inv
import Verif.Lemmas.Records
import Verif.Props.Primitives
/-!
# C03, C04, C05: text fields and scripts
-/
namespace Vpin

/-- the text before the first NUL -/
def upToNul (s : Str) : Str := s.takeWhile fun c => c.toNat != 0

theorem decode_cut_encode {s : Str} {d : Bytes} (h : encodeLatin1 s = .ok d) :
    decodeLatin1 (cutNul d) = upToNul s := by
  induction s generalizing d with
  | nil => cases h; rfl
  | cons c s ih =>
    unfold encodeLatin1 at h
    cases hb : latin1Byte c with
    | none => rw [hb] at h; cases h
    | some b =>
      cases hs : encodeLatin1 s with
      | error e => rw [hb, hs] at h; cases h
      | ok bs =>
        rw [hb, hs] at h
        cases h
        have hc : b = UInt8.ofNat c.toNat ∧ c.toNat < 256 := by
          unfold latin1Byte at hb
          split at hb
          · next hlt => cases hb; exact ⟨rfl, hlt⟩
          · cases hb
        by_cases h0 : c.toNat = 0
        · have : b = 0 := by rw [hc.1, h0]; rfl
          simp [cutNul, this, upToNul, h0, decodeLatin1]
        · have hbn : b.toNat = c.toNat := by rw [hc.1]; simp; omega
          have hb0 : b ≠ 0 := by
            intro e; rw [e] at hbn; exact h0 (by simpa using hbn.symm)
          have := ih hs
          simp only [decodeLatin1, upToNul] at this
          have hne : (c.toNat != 0) = true := by simp [h0]
          simp only [cutNul, hb0, if_false, upToNul, List.takeWhile, hne, decodeLatin1,
            List.map_cons, latin1Char, hbn, Char.ofNat_toNat]
          exact congrArg (c :: ·) this

/-- C03: a text field reads back as the part before the first NUL. -/
theorem C03_text_read_back (s : Str) (h : IsLatin1 s) (hl : 8 + s.length < 2 ^ 32)
    (t : Tag) (hv : ValidTag t) (hne : t ≠ ENDB) :
    ∃ bs, writeBiff [wString t s] = .ok bs ∧
      readStruct [(t, fld getString fun v _ => some v)] none bs = .ok (some (upToNul s)) := by
  obtain ⟨d, hd⟩ := (encodeLatin1_ok_iff s).2 h
  have hdl := encodeLatin1_length hd
  have hlt : d.length < 2 ^ 32 := by omega
  have hw : wString t s = .sized t (le32 (UInt32.ofNat d.length) ++ d) := by
    simp only [wString, pString, hd, pLenData, hlt, if_true, WOp.sizedR]
  rw [hw]
  have := getString_rt_raw d hlt
  rw [decode_cut_encode hd] at this
  exact (OReads.fld (hs := [(t, fld getString fun v _ => some v)])
    (set := fun v _ => some v) (s := none) (by simp [List.lookup]) this
    (by simp; omega) hv hne).roundtrip

/-- C03: a text with a character above U+00FF cannot be written. -/
theorem C03_not_latin1_fails (s : Str) (h : ¬ IsLatin1 s) (t : Tag) :
    writeBiff [wString t s] = .error .panic := by
  have : encodeLatin1 s = .error .panic := by
    cases hd : encodeLatin1 s with
    | ok d => exact absurd ((encodeLatin1_ok_iff s).1 ⟨d, hd⟩) h
    | error e =>
      have : ∀ s e, encodeLatin1 s = .error e → e = .panic := by
        intro s
        induction s with
        | nil => intro e h; cases h
        | cons c s ih =>
          intro e h
          unfold encodeLatin1 at h
          split at h <;> cases h
          rfl
      rw [this s e hd]
  simp [wString, pString, this, WOp.sizedR, writeBiff, runOps, WOp.run]

theorem upToNul_eq_iff (s : Str) : upToNul s = s ↔ NulFree s := by
  unfold upToNul NulFree
  induction s with
  | nil => simp
  | cons c s ih =>
    by_cases h : c.toNat = 0
    · simp [h]
    · have hne : (c.toNat != 0) = true := by simp [h]
      simp only [List.takeWhile, hne, List.cons.injEq, true_and, ih, List.mem_cons, ne_eq,
        forall_eq_or_imp, h, not_false_eq_true]

/-- C03: a text field (of a length that fits in a record) survives exactly when all its
characters are Latin-1 and none is NUL. -/
theorem C03_text_survives_iff (s : Str) (hl : 8 + s.length < 2 ^ 32) :
    FieldSurvives wString getString s ↔ IsLatin1 s ∧ NulFree s := by
  constructor
  · intro h
    by_cases hs : IsLatin1 s
    · refine ⟨hs, ?_⟩
      obtain ⟨bs, hw, hr⟩ := h tag!"TEXT" (by decide) (by decide)
      obtain ⟨bs', hw', hr'⟩ := C03_text_read_back s hs hl tag!"TEXT" (by decide) (by decide)
      rw [hw] at hw'
      cases hw'
      rw [hr] at hr'
      injection hr' with e
      injection e with e
      exact (upToNul_eq_iff s).1 e.symm
    · obtain ⟨bs, hw, _⟩ := h tag!"TEXT" (by decide) (by decide)
      rw [C03_not_latin1_fails s hs] at hw
      cases hw
  · intro h
    exact string_rt.survives ⟨h.1, h.2, hl⟩

example : Text "Wöll.élan?".toList := by decide
example : (∀ c ∈ ['a', '\x00', 'b'], c.toNat < 256) ∧ upToNul ['a', '\x00', 'b'] = ['a'] := by decide
example : ¬ ∀ c ∈ "€".toList, c.toNat < 256 := by decide

/-- C04: every Unicode string survives as wide text. -/
theorem C04_wide_survives (s : Str) (h : WText s) : FieldSurvives wWide getWide s :=
  wide_rt.survives h

/-- C04: the decoder accepts exactly the encodings of strings, each as the string it encodes;
everything else is rejected. -/
theorem C04_decoder_exact (bs : Bytes) (s : Str) :
    decodeUtf16le bs = .ok s ↔ encodeUtf16le s = bs :=
  ⟨encode_of_decode_utf16le, fun h => h ▸ decode_encode_utf16le s⟩

/-- C04: an odd number of bytes is rejected. -/
theorem C04_odd_rejected (bs : Bytes) (h : bs.length % 2 = 1) :
    ∃ e, decodeUtf16le bs = .error e := by
  cases hd : decodeUtf16le bs with
  | error e => exact ⟨e, rfl⟩
  | ok s =>
    have := (C04_decoder_exact bs s).1 hd
    rw [← this, encodeUtf16le_length] at h
    omega

/-- a surrogate code unit that is not part of a pair -/
def unpairedSurrogate (us : List UInt16) : Prop :=
  ∃ a u b, us = a ++ u :: b ∧
    ((0xD800 ≤ u.toNat ∧ u.toNat < 0xDC00 ∧
        ∀ v c, b = v :: c → ¬ (0xDC00 ≤ v.toNat ∧ v.toNat < 0xE000)) ∨
     (0xDC00 ≤ u.toNat ∧ u.toNat < 0xE000 ∧
        ∀ c v, a = c ++ [v] → ¬ (0xD800 ≤ v.toNat ∧ v.toNat < 0xDC00)))

theorem encodeUtf16_paired (s : Str) : ¬ unpairedSurrogate (encodeUtf16 s) := by
  induction s with
  | nil => rintro ⟨a, u, b, h, _⟩; simp [encodeUtf16] at h
  | cons c s ih =>
    rintro ⟨a, u, b, h, hu⟩
    have hc := char_range c
    have he : encodeUtf16 (c :: s) = utf16Units c ++ encodeUtf16 s := by simp [encodeUtf16]
    rw [he] at h
    by_cases hn : c.toNat < 0x10000
    · have hx : utf16Units c = [UInt16.ofNat c.toNat] := by simp [utf16Units, hn]
      have hxn : (UInt16.ofNat c.toNat).toNat = c.toNat := by simp; omega
      rw [hx] at h
      cases a with
      | nil =>
        simp only [List.nil_append, List.cons_append, List.cons.injEq] at h
        rw [← h.1, hxn] at hu
        omega
      | cons x a =>
        simp only [List.nil_append, List.cons_append, List.cons.injEq] at h
        refine ih ⟨a, u, b, h.2, ?_⟩
        rcases hu with hu | ⟨h1, h2, h3⟩
        · exact .inl hu
        · exact .inr ⟨h1, h2, fun c v e => h3 (x :: c) v (by simp [e])⟩
    · have hx : utf16Units c = [UInt16.ofNat (0xD800 + (c.toNat - 0x10000) / 0x400),
          UInt16.ofNat (0xDC00 + (c.toNat - 0x10000) % 0x400)] := by simp [utf16Units, hn]
      have h1 : (UInt16.ofNat (0xD800 + (c.toNat - 0x10000) / 0x400)).toNat
          = 0xD800 + (c.toNat - 0x10000) / 0x400 := by simp; omega
      have h2 : (UInt16.ofNat (0xDC00 + (c.toNat - 0x10000) % 0x400)).toNat
          = 0xDC00 + (c.toNat - 0x10000) % 0x400 := by simp; omega
      rw [hx] at h
      generalize UInt16.ofNat (0xD800 + (c.toNat - 0x10000) / 0x400) = hi at *
      generalize UInt16.ofNat (0xDC00 + (c.toNat - 0x10000) % 0x400) = lo at *
      match a, h with
      | [], h =>
        simp only [List.nil_append, List.cons_append, List.cons.injEq] at h
        rcases hu with ⟨_, _, h3⟩ | ⟨h3, _, _⟩
        · exact h3 lo _ h.2.symm (by omega)
        · rw [← h.1] at h3; omega
      | [x], h =>
        simp only [List.nil_append, List.cons_append, List.cons.injEq] at h
        rcases hu with ⟨_, h3, _⟩ | ⟨_, _, h3⟩
        · rw [← h.2.1] at h3; omega
        · refine h3 [] x rfl ?_
          rw [← h.1]; omega
      | x :: y :: a, h =>
        simp only [List.nil_append, List.cons_append, List.cons.injEq] at h
        refine ih ⟨a, u, b, h.2.2, ?_⟩
        rcases hu with hu | ⟨h1, h2, h3⟩
        · exact .inl hu
        · exact .inr ⟨h1, h2, fun c v e => h3 (x :: y :: c) v (by simp [e])⟩

/-- C04: code units with an unpaired surrogate are rejected. -/
theorem C04_unpaired_rejected (us : List UInt16) (h : unpairedSurrogate us) :
    ∃ e, decodeUtf16le (us.flatMap le16) = .error e := by
  cases hd : decodeUtf16le (us.flatMap le16) with
  | error e => exact ⟨e, rfl⟩
  | ok s =>
    unfold decodeUtf16le at hd
    rw [units16_flatMap] at hd
    have := encodeUtf16_of_from hd
    exact absurd h (this ▸ encodeUtf16_paired s)

example : unpairedSurrogate [0x41, 0xD83D, 0x42] :=
  ⟨[0x41], 0xD83D, [0x42], rfl, .inl ⟨by decide, by decide, fun v c h => by
    cases h; decide⟩⟩

example : WText "😀 naïve\x00Ω".toList := by decide

/-- C05: script bytes read from a file are written back unchanged, whatever their encoding. -/
theorem C05_script_bytes_preserved (bs : Bytes) :
    (StringWithEncoding.ofBytes bs).toBytes = .ok bs := by
  unfold StringWithEncoding.ofBytes
  cases h : decodeUtf8 bs with
  | some s => simp [StringWithEncoding.toBytes, encode_of_decodeUtf8 h]
  | none => simp [StringWithEncoding.toBytes, encodeLatin1_decodeLatin1]

theorem getCode_rt {d : Bytes} (h0 : 0 ∉ d) (hl : d.length < 2 ^ 32) :
    RTN getCode (le32 (UInt32.ofNat d.length) ++ d) (StringWithEncoding.ofBytes d) := by
  refine RTN.bind (getU32N_rt _) ?_
  have := RTN.map (f := StringWithEncoding.ofBytes) (takeCut_rt d _ (ofNat_toNat_u32 hl).symm)
  rwa [cutNul_eq_self h0] at this

/-- C05: a script record with any NUL-free bytes is read, and writing what was read produces
the same record bytes. -/
theorem C05_script_record (d : Bytes) (h0 : 0 ∉ d) (hl : d.length < 2 ^ 32) :
    readStruct [(tag!"CODE", fld getCode fun v _ => some v)] none
        (le32 4 ++ (tagBytes tag!"CODE" ++ (le32 (UInt32.ofNat d.length) ++ d)) ++ recordBytes endbName [])
      = .ok (some (StringWithEncoding.ofBytes d)) ∧
    writeBiff [wStringEncNoSize tag!"CODE" (StringWithEncoding.ofBytes d)]
      = .ok (le32 4 ++ (tagBytes tag!"CODE" ++ (le32 (UInt32.ofNat d.length) ++ d))
          ++ recordBytes endbName []) := by
  have hw : wStringEncNoSize tag!"CODE" (StringWithEncoding.ofBytes d)
      = .unsized tag!"CODE" (le32 (UInt32.ofNat d.length) ++ d) := by
    simp only [wStringEncNoSize, pStringEnc, C05_script_bytes_preserved, pLenData, hl, if_true,
      WOp.unsizedR]
  have hr := OReads.unsized (t := tag!"CODE") (hs := [(tag!"CODE", fld getCode fun v _ => some v)]) (s := none)
    (p := le32 (UInt32.ofNat d.length) ++ d) rfl (by decide) (by decide)
    (Step.fldN (getCode_rt h0 hl) (fun v _ => some v) none)
  obtain ⟨bs, h1, h2⟩ := hr.roundtrip
  have h3 := writeBiff_ok _ hr.good
  rw [hw]
  rw [h1] at h3
  injection h3 with h3
  have h4 : bs = le32 4 ++ (tagBytes tag!"CODE" ++ (le32 (UInt32.ofNat d.length) ++ d))
      ++ recordBytes endbName [] := by
    rw [h3, recordBytes_endb]; simp [WOp.bytes]
  rw [← h4]
  exact ⟨h2, h1⟩

/-- C05: a script set as text (stored as UTF-8) reads back as the same text. -/
theorem C05_script_text_survives (s : Str) (h : NulFree s) (hl : (encodeUtf8 s).length < 2 ^ 32) :
    ∃ bs, writeBiff [wStringEncNoSize tag!"CODE" ⟨.utf8, s⟩] = .ok bs ∧
      readStruct [(tag!"CODE", fld getCode fun v _ => some v)] none bs
        = .ok (some ⟨.utf8, s⟩) := by
  have h1 : StringWithEncoding.ofBytes (encodeUtf8 s) = ⟨.utf8, s⟩ := by
    simp [StringWithEncoding.ofBytes, decode_encode_utf8]
  have h2 := C05_script_record (encodeUtf8 s) (encodeUtf8_zero_not_mem h) hl
  rw [h1] at h2
  exact ⟨_, h2.2, h2.1⟩

/-- a script in Latin-1 (0xE9 alone is not UTF-8) and one in UTF-8 -/
example : StringWithEncoding.ofBytes [0x27, 0xE9] = ⟨.latin1, ['\'', 'é']⟩ ∧
    StringWithEncoding.ofBytes [0x27, 0xC3, 0xA9] = ⟨.utf8, ['\'', 'é']⟩ := by decide

end Vpin
