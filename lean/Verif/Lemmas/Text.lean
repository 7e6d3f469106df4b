import Verif.Model.Text
import Verif.Spec.Text
import Verif.Lemmas.Bytes
/-! Helper lemmas about text encodings. -/
namespace Vpin

/-- A Lean `Char` is a scalar value: below 0xD800, or above 0xDFFF and below 0x110000. -/
theorem char_range (c : Char) : c.toNat < 0xD800 ∨ (0xDFFF < c.toNat ∧ c.toNat < 0x110000) := c.valid

theorem ofNat_toNat (c : Char) : Char.ofNat c.toNat = c := Char.ofNat_toNat c

theorem toNat_ofNat {n : Nat} (h : n < 0xD800 ∨ (0xDFFF < n ∧ n < 0x110000)) :
    (Char.ofNat n).toNat = n := by
  have hv : n.isValidChar := h
  simp [Char.ofNat, hv, Char.toNat, Char.ofNatAux]

/-! ### Latin-1 -/

theorem latin1Byte_latin1Char (b : UInt8) : latin1Byte (latin1Char b) = some b := by
  have hb := b.toNat_lt
  have : (latin1Char b).toNat = b.toNat := toNat_ofNat (by omega)
  simp [latin1Byte, this, hb]

theorem encodeLatin1_decodeLatin1 (bs : Bytes) : encodeLatin1 (decodeLatin1 bs) = .ok bs := by
  induction bs with
  | nil => rfl
  | cons b bs ih =>
    simp only [decodeLatin1, List.map_cons, encodeLatin1] at *
    rw [ih, latin1Byte_latin1Char]

theorem encodeLatin1_ok_iff (s : Str) : (∃ bs, encodeLatin1 s = .ok bs) ↔ IsLatin1 s := by
  induction s with
  | nil => simp [encodeLatin1, IsLatin1]
  | cons c cs ih =>
    simp only [encodeLatin1, latin1Byte]
    constructor
    · rintro ⟨bs, h⟩
      by_cases hc : c.toNat < 256
      · cases hcs : encodeLatin1 cs with
        | error e => simp [hc, hcs] at h
        | ok b =>
          have := ih.1 ⟨b, hcs⟩
          intro x hx
          cases hx with
          | head => exact hc
          | tail _ hx => exact this x hx
      · simp [hc] at h
    · intro h
      have hc : c.toNat < 256 := h c (by simp)
      obtain ⟨bs, hbs⟩ := ih.2 (fun x hx => h x (by simp [hx]))
      simp [hc, hbs]

theorem decodeLatin1_of_encode {s : Str} {bs : Bytes} (h : encodeLatin1 s = .ok bs) :
    decodeLatin1 bs = s := by
  induction s generalizing bs with
  | nil => simp [encodeLatin1] at h; subst h; rfl
  | cons c cs ih =>
    simp only [encodeLatin1, latin1Byte] at h
    by_cases hc : c.toNat < 256
    · cases hcs : encodeLatin1 cs with
      | error e => simp [hc, hcs] at h
      | ok b =>
        simp [hc, hcs] at h
        subst h
        have := ih hcs
        have h1 : latin1Char (UInt8.ofNat c.toNat) = c := by
          simp [latin1Char, Nat.mod_eq_of_lt hc]
        show latin1Char _ :: decodeLatin1 b = c :: cs
        rw [this, h1]
    · simp [hc] at h

theorem encodeLatin1_length {s : Str} {bs : Bytes} (h : encodeLatin1 s = .ok bs) :
    bs.length = s.length := by
  rw [← decodeLatin1_of_encode h]; simp [decodeLatin1]

theorem cutNul_eq_self {bs : Bytes} (h : 0 ∉ bs) : cutNul bs = bs := by
  induction bs with
  | nil => rfl
  | cons b bs ih =>
    simp only [List.mem_cons, not_or] at h
    have hb : b ≠ 0 := fun e => h.1 e.symm
    simp [cutNul, hb, ih h.2]

theorem cutNul_zero_not_mem (bs : Bytes) : 0 ∉ cutNul bs := by
  induction bs with
  | nil => simp [cutNul]
  | cons b bs ih =>
    by_cases hb : b = 0
    · simp [cutNul, hb]
    · simp [cutNul, hb, ih, Ne.symm hb]

theorem cutNul_append_zero {bs : Bytes} (h : 0 ∉ bs) (r : Bytes) : cutNul (bs ++ 0 :: r) = bs := by
  induction bs with
  | nil => simp [cutNul]
  | cons b bs ih =>
    simp only [List.mem_cons, not_or] at h
    have hb : b ≠ 0 := fun e => h.1 e.symm
    simp [cutNul, hb, ih h.2]

theorem nulFree_encode {s : Str} {bs : Bytes} (h : encodeLatin1 s = .ok bs) (hn : NulFree s) :
    0 ∉ bs := by
  intro h0
  have hs := decodeLatin1_of_encode h
  have : latin1Char 0 ∈ s := by rw [← hs]; exact List.mem_map_of_mem h0
  exact hn _ this rfl

/-! ### UTF-16 -/

theorem units16_flatMap (us : List UInt16) : units16 (us.flatMap le16) = .ok us := by
  induction us with
  | nil => rfl
  | cons u us ih =>
    have : (u :: us).flatMap le16
        = byteAt u.toNat 0 :: byteAt u.toNat 1 :: us.flatMap le16 := by simp [le16]
    rw [this]
    simp only [units16, ih]
    have := ofLe16_le16 u
    simp only [le16] at this
    rw [this]

theorem fromUtf16_cons (c : Char) (us : List UInt16) :
    fromUtf16 (utf16Units c ++ us) =
      match fromUtf16 us with
      | .ok s => .ok (c :: s)
      | .error e => .error e := by
  have hr := char_range c
  by_cases h : c.toNat < 0x10000
  · have hn : (UInt16.ofNat c.toNat).toNat = c.toNat := by
      simp [UInt16.toNat_ofNat']; omega
    simp only [utf16Units, h, if_true, List.cons_append, List.nil_append]
    rw [fromUtf16.eq_def]
    simp only [hn]
    rw [if_pos (by omega), ofNat_toNat]
    rfl
  · have hhi : (UInt16.ofNat (0xD800 + (c.toNat - 0x10000) / 0x400)).toNat
        = 0xD800 + (c.toNat - 0x10000) / 0x400 := by simp [UInt16.toNat_ofNat']; omega
    have hlo : (UInt16.ofNat (0xDC00 + (c.toNat - 0x10000) % 0x400)).toNat
        = 0xDC00 + (c.toNat - 0x10000) % 0x400 := by simp [UInt16.toNat_ofNat']; omega
    simp only [utf16Units, h, if_false, List.cons_append, List.nil_append, fromUtf16, hhi, hlo]
    rw [if_neg (by omega), if_neg (by omega), if_pos (by omega)]
    have : 0x10000 + (0xD800 + (c.toNat - 0x10000) / 0x400 - 0xD800) * 0x400 +
        (0xDC00 + (c.toNat - 0x10000) % 0x400 - 0xDC00) = c.toNat := by omega
    rw [this, ofNat_toNat]
    rfl

theorem fromUtf16_encodeUtf16 (s : Str) : fromUtf16 (encodeUtf16 s) = .ok s := by
  induction s with
  | nil => rfl
  | cons c s ih =>
    have : encodeUtf16 (c :: s) = utf16Units c ++ encodeUtf16 s := by simp [encodeUtf16]
    rw [this, fromUtf16_cons, ih]

theorem decode_encode_utf16le (s : Str) : decodeUtf16le (encodeUtf16le s) = .ok s := by
  simp [decodeUtf16le, encodeUtf16le, units16_flatMap, fromUtf16_encodeUtf16]

theorem encodeUtf16le_length (s : Str) : (encodeUtf16le s).length = 2 * (encodeUtf16 s).length := by
  unfold encodeUtf16le
  induction encodeUtf16 s with
  | nil => rfl
  | cons u us ih => simp [ih]; omega

theorem encodeUtf16le_utf16Len (s : Str) : (encodeUtf16le s).length = utf16Len s := by
  rw [encodeUtf16le_length]
  induction s with
  | nil => rfl
  | cons c s ih =>
    have : encodeUtf16 (c :: s) = utf16Units c ++ encodeUtf16 s := by simp [encodeUtf16]
    rw [this, List.length_append, Nat.mul_add, ih, utf16Len]
    unfold utf16Units
    split <;> simp

theorem ofNat_valid {n : Nat} (h : n < 0xD800 ∨ (0xDFFF < n ∧ n < 0x110000)) :
    (Char.ofNat n).toNat = n := by
  have hv : n.isValidChar := h
  simp [Char.ofNat, hv, Char.toNat, Char.ofNatAux]

theorem encodeUtf16_of_from {us : List UInt16} {s : Str} (h : fromUtf16 us = .ok s) :
    encodeUtf16 s = us := by
  fun_induction fromUtf16 us generalizing s with
  | case1 => cases h; rfl
  | case2 u us hu s' hs ih =>
    cases h
    have := ih hs
    have hn : (Char.ofNat u.toNat).toNat = u.toNat := ofNat_valid (by have := u.toNat_lt; omega)
    simp only [encodeUtf16, List.flatMap_cons] at this ⊢
    rw [this]
    have hlt : u.toNat < 0x10000 := u.toNat_lt
    simp [utf16Units, hn, hlt]
  | case3 => cases h
  | case4 => cases h
  | case5 => cases h
  | case6 u hu1 hu2 v vs hv s' hs ih =>
    cases h
    have := ih hs
    have hu := u.toNat_lt
    have hn := ofNat_valid (n := 0x10000 + (u.toNat - 0xD800) * 0x400 + (v.toNat - 0xDC00)) (by omega)
    simp only [encodeUtf16, List.flatMap_cons] at this ⊢
    rw [this]
    have hge : ¬ (0x10000 + (u.toNat - 0xD800) * 0x400 + (v.toNat - 0xDC00)) < 0x10000 := by omega
    simp only [utf16Units, hn, hge, if_false]
    have e1 : 0xD800 + ((0x10000 + (u.toNat - 0xD800) * 0x400 + (v.toNat - 0xDC00)) - 0x10000) / 0x400
        = u.toNat := by omega
    have e2 : 0xDC00 + ((0x10000 + (u.toNat - 0xD800) * 0x400 + (v.toNat - 0xDC00)) - 0x10000) % 0x400
        = v.toNat := by omega
    rw [e1, e2]
    simp
  | case7 => cases h
  | case8 => cases h

theorem units16_length {bs : Bytes} {us : List UInt16} (h : units16 bs = .ok us) :
    bs.length = 2 * us.length := by
  fun_induction units16 bs generalizing us with
  | case1 => cases h; rfl
  | case2 => cases h
  | case3 a b rest us' hs ih => cases h; have := ih hs; simp; omega
  | case4 => cases h

theorem le16_ofLe16 (a b : UInt8) : le16 (ofLe16 [a, b]) = [a, b] := by
  have ha := a.toNat_lt
  have hb := b.toNat_lt
  simp only [ofLe16, leNat, le16, byteAt]
  have : (UInt16.ofNat (a.toNat + 256 * (b.toNat + 256 * 0))).toNat = a.toNat + 256 * b.toNat := by
    simp; omega
  rw [this]
  have e1 : (a.toNat + 256 * b.toNat) / 256 ^ 0 % 256 = a.toNat := by omega
  have e2 : (a.toNat + 256 * b.toNat) / 256 ^ 1 % 256 = b.toNat := by omega
  simp only [e1, e2]
  simp

theorem units16_flatMap_of {bs : Bytes} {us : List UInt16} (h : units16 bs = .ok us) :
    us.flatMap le16 = bs := by
  fun_induction units16 bs generalizing us with
  | case1 => cases h; rfl
  | case2 => cases h
  | case3 a b rest us' hs ih =>
    cases h
    rw [List.flatMap_cons, ih hs, le16_ofLe16]; rfl
  | case4 => cases h

/-- Decoding UTF-16LE loses nothing. -/
theorem encode_of_decode_utf16le {bs : Bytes} {s : Str} (h : decodeUtf16le bs = .ok s) :
    encodeUtf16le s = bs := by
  unfold decodeUtf16le at h
  split at h
  · next us hu =>
    rw [encodeUtf16le, encodeUtf16_of_from h, units16_flatMap_of hu]
  · cases h

/-! ### UTF-8 -/

theorem u8 {n : Nat} (h : n < 256) : (UInt8.ofNat n).toNat = n := by
  simp; omega

theorem isCont_cont {m : Nat} (h : m < 64) : isCont (UInt8.ofNat (0x80 + m)) = true := by
  simp only [isCont, u8 (show 0x80 + m < 256 by omega)]
  simp; omega

theorem utf8Head_utf8Bytes (c : Char) (rest : Bytes) :
    utf8Head (utf8Bytes c ++ rest) = some (c, rest) := by
  have hr := char_range c
  have hc := ofNat_toNat c
  generalize hn : c.toNat = n at *
  unfold utf8Bytes
  simp only [hn]
  by_cases h1 : n < 0x80
  · simp only [h1, if_true, List.cons_append, List.nil_append, utf8Head,
      u8 (show n < 256 by omega), hc]
  · by_cases h2 : n < 0x800
    · simp only [h1, h2, if_true, if_false, List.cons_append, List.nil_append, utf8Head,
        u8 (show 0xC0 + n / 64 < 256 by omega), u8 (show 0x80 + n % 64 < 256 by omega),
        isCont_cont (show n % 64 < 64 by omega)]
      rw [if_neg (by omega), if_neg (by omega), if_pos (by omega)]
      have : (0xC0 + n / 64 - 0xC0) * 64 + (0x80 + n % 64 - 0x80) = n := by omega
      rw [this, hc]
    · by_cases h3 : n < 0x10000
      · simp only [h1, h2, h3, if_true, if_false, List.cons_append, List.nil_append, utf8Head,
          u8 (show 0xE0 + n / 4096 < 256 by omega), u8 (show 0x80 + n / 64 % 64 < 256 by omega),
          u8 (show 0x80 + n % 64 < 256 by omega),
          isCont_cont (show n % 64 < 64 by omega), isCont_cont (show n / 64 % 64 < 64 by omega)]
        have : (0xE0 + n / 4096 - 0xE0) * 4096 + (0x80 + n / 64 % 64 - 0x80) * 64
            + (0x80 + n % 64 - 0x80) = n := by omega
        rw [if_neg (by omega), if_neg (by omega), if_neg (by omega), if_pos (by omega)]
        simp only [this, hc]
        rw [if_pos]
        simp; omega
      · simp only [h1, h2, h3, if_false, List.cons_append, List.nil_append, utf8Head,
          u8 (show 0xF0 + n / 262144 < 256 by omega), u8 (show 0x80 + n / 4096 % 64 < 256 by omega),
          u8 (show 0x80 + n / 64 % 64 < 256 by omega), u8 (show 0x80 + n % 64 < 256 by omega),
          isCont_cont (show n % 64 < 64 by omega), isCont_cont (show n / 64 % 64 < 64 by omega),
          isCont_cont (show n / 4096 % 64 < 64 by omega)]
        have : (0xF0 + n / 262144 - 0xF0) * 262144 + (0x80 + n / 4096 % 64 - 0x80) * 4096
            + (0x80 + n / 64 % 64 - 0x80) * 64 + (0x80 + n % 64 - 0x80) = n := by omega
        rw [if_neg (by omega), if_neg (by omega), if_neg (by omega), if_neg (by omega),
          if_pos (by omega)]
        simp only [this, hc]
        rw [if_pos]
        simp; omega

theorem utf8Bytes_length_pos (c : Char) : 0 < (utf8Bytes c).length := by
  unfold utf8Bytes; simp only; split
  · simp
  · split
    · simp
    · split <;> simp

theorem decodeUtf8F_encode (s : Str) (f : Nat) (hf : (encodeUtf8 s).length ≤ f) :
    decodeUtf8F f (encodeUtf8 s) = some s := by
  induction s generalizing f with
  | nil => cases f <;> rfl
  | cons c s ih =>
    have he : encodeUtf8 (c :: s) = utf8Bytes c ++ encodeUtf8 s := by simp [encodeUtf8]
    rw [he] at hf ⊢
    have hp := utf8Bytes_length_pos c
    simp only [List.length_append] at hf
    cases f with
    | zero => omega
    | succ f =>
      have : ∃ b bs, utf8Bytes c ++ encodeUtf8 s = b :: bs := by
        cases h : utf8Bytes c with
        | nil => simp [h] at hp
        | cons b bs => exact ⟨b, bs ++ encodeUtf8 s, rfl⟩
      obtain ⟨b, bs, hb⟩ := this
      have hh := utf8Head_utf8Bytes c (encodeUtf8 s)
      rw [hb] at hh ⊢
      simp only [decodeUtf8F, hh]
      rw [ih f (by omega)]

theorem decode_encode_utf8 (s : Str) : decodeUtf8 (encodeUtf8 s) = some s :=
  decodeUtf8F_encode s _ (Nat.le_refl _)

theorem utf8Bytes_of_head {bs rest : Bytes} {c : Char} (h : utf8Head bs = some (c, rest)) :
    bs = utf8Bytes c ++ rest := by
  cases bs with
  | nil => simp [utf8Head] at h
  | cons a bs =>
    have ha := a.toNat_lt
    simp only [utf8Head] at h
    have hofn : UInt8.ofNat a.toNat = a := by simp
    split at h
    · rename_i h1
      simp only [Option.some.injEq, Prod.mk.injEq] at h
      obtain ⟨rfl, rfl⟩ := h
      unfold utf8Bytes
      simp only [toNat_ofNat (n := a.toNat) (by omega), h1, if_true]
      simp [hofn]
    · split at h
      · simp at h
      · split at h
        · cases bs with
          | nil => simp at h
          | cons b bs =>
            simp only at h
            split at h
            · rename_i hc
              simp only [Option.some.injEq, Prod.mk.injEq] at h
              obtain ⟨rfl, rfl⟩ := h
              simp only [isCont, Bool.and_eq_true, decide_eq_true_eq] at hc
              generalize hcp : (a.toNat - 0xC0) * 64 + (b.toNat - 0x80) = cp
              have hv : (Char.ofNat cp).toNat = cp := toNat_ofNat (by omega)
              unfold utf8Bytes
              simp only [hv]
              rw [if_neg (by omega), if_pos (by omega)]
              have e1 : 0xC0 + cp / 64 = a.toNat := by omega
              have e2 : 0x80 + cp % 64 = b.toNat := by omega
              rw [e1, e2]; simp
            · simp at h
        · split at h
          · cases bs with
            | nil => simp at h
            | cons b bs =>
              cases bs with
              | nil => simp at h
              | cons d bs =>
                simp only at h
                split at h
                · rename_i hc
                  simp only [Option.some.injEq, Prod.mk.injEq] at h
                  obtain ⟨rfl, rfl⟩ := h
                  simp only [isCont, Bool.and_eq_true, decide_eq_true_eq, Bool.not_eq_true',
                    Bool.and_eq_false_iff, decide_eq_false_iff_not] at hc
                  generalize hcp : (a.toNat - 0xE0) * 4096 + (b.toNat - 0x80) * 64 + (d.toNat - 0x80) = cp at *
                  have hv : (Char.ofNat cp).toNat = cp := toNat_ofNat (by omega)
                  unfold utf8Bytes
                  simp only [hv]
                  rw [if_neg (by omega), if_neg (by omega), if_pos (by omega)]
                  have e1 : 0xE0 + cp / 4096 = a.toNat := by omega
                  have e2 : 0x80 + cp / 64 % 64 = b.toNat := by omega
                  have e3 : 0x80 + cp % 64 = d.toNat := by omega
                  rw [e1, e2, e3]; simp
                · simp at h
          · split at h
            · cases bs with
              | nil => simp at h
              | cons b bs =>
                cases bs with
                | nil => simp at h
                | cons d bs =>
                  cases bs with
                  | nil => simp at h
                  | cons e bs =>
                    simp only at h
                    split at h
                    · rename_i hc
                      simp only [Option.some.injEq, Prod.mk.injEq] at h
                      obtain ⟨rfl, rfl⟩ := h
                      simp only [isCont, Bool.and_eq_true, decide_eq_true_eq] at hc
                      generalize hcp : (a.toNat - 0xF0) * 262144 + (b.toNat - 0x80) * 4096
                        + (d.toNat - 0x80) * 64 + (e.toNat - 0x80) = cp at *
                      have hv : (Char.ofNat cp).toNat = cp := toNat_ofNat (by omega)
                      unfold utf8Bytes
                      simp only [hv]
                      rw [if_neg (by omega), if_neg (by omega), if_neg (by omega)]
                      have e1 : 0xF0 + cp / 262144 = a.toNat := by omega
                      have e2 : 0x80 + cp / 4096 % 64 = b.toNat := by omega
                      have e3 : 0x80 + cp / 64 % 64 = d.toNat := by omega
                      have e4 : 0x80 + cp % 64 = e.toNat := by omega
                      rw [e1, e2, e3, e4]; simp
                    · simp at h
            · simp at h

theorem encode_of_decodeUtf8F {f : Nat} {bs : Bytes} {s : Str} (h : decodeUtf8F f bs = some s) :
    encodeUtf8 s = bs := by
  induction f generalizing bs s with
  | zero =>
    cases bs with
    | nil => simp [decodeUtf8F] at h; subst h; rfl
    | cons b bs => simp [decodeUtf8F] at h
  | succ f ih =>
    cases bs with
    | nil => simp [decodeUtf8F] at h; subst h; rfl
    | cons b bs =>
      simp only [decodeUtf8F] at h
      split at h
      · simp at h
      · rename_i c rest hh
        split at h
        · rename_i t ht
          simp only [Option.some.injEq] at h
          subst h
          rw [utf8Bytes_of_head hh]
          show List.flatMap utf8Bytes (c :: t) = _
          rw [List.flatMap_cons]
          show _ ++ encodeUtf8 t = _
          rw [ih ht]
        · simp at h

theorem encode_of_decodeUtf8 {bs : Bytes} {s : Str} (h : decodeUtf8 bs = some s) :
    encodeUtf8 s = bs := encode_of_decodeUtf8F h

theorem utf8Bytes_zero_mem {c : Char} : 0 ∈ utf8Bytes c ↔ c.toNat = 0 := by
  have hr := char_range c
  have hz : ∀ n, n < 256 → ((0 : UInt8) = UInt8.ofNat n ↔ n = 0) := by
    intro n hn
    rw [← UInt8.toNat_inj, u8 hn]
    exact eq_comm
  unfold utf8Bytes
  simp only
  split
  · simp [hz _ (show c.toNat < 256 by omega)]
  · split
    · simp only [List.mem_cons, List.not_mem_nil, or_false]
      rw [hz _ (by omega), hz _ (by omega)]; omega
    · split
      · simp only [List.mem_cons, List.not_mem_nil, or_false]
        rw [hz _ (by omega), hz _ (by omega), hz _ (by omega)]; omega
      · simp only [List.mem_cons, List.not_mem_nil, or_false]
        rw [hz _ (by omega), hz _ (by omega), hz _ (by omega), hz _ (by omega)]; omega

theorem encodeUtf8_zero_not_mem {s : Str} (h : NulFree s) : 0 ∉ encodeUtf8 s := by
  intro hm
  simp only [encodeUtf8, List.mem_flatMap] at hm
  obtain ⟨c, hc, h0⟩ := hm
  exact h c hc (utf8Bytes_zero_mem.1 h0)

end Vpin
