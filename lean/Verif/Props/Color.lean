import Verif.Lemmas.Color
import Verif.Lemmas.Fields
/-!
# C33: colours
-/
namespace Vpin

/-- C33: the Windows integer is `0xUUBBGGRR`. -/
theorem C33_win_color_value (c : Color) :
    c.toWinColor.toNat
      = c.unused.toNat * 2 ^ 24 + (c.b.toNat * 2 ^ 16 + (c.g.toNat * 2 ^ 8 + c.r.toNat)) :=
  winColor_toNat c

/-- C33: all four components survive the Windows integer. -/
theorem C33_win_color_roundtrip (c : Color) : Color.fromWinColor c.toWinColor = c := by
  have hr := c.r.toNat_lt
  have hg := c.g.toNat_lt
  have hb := c.b.toNat_lt
  have hu := c.unused.toNat_lt
  obtain ⟨h1, h2, h3, h4⟩ := fromWinColor_toNat c.toWinColor
  rw [winColor_toNat] at h1 h2 h3 h4
  refine Color.ext_toNat (h1.trans ?_) (h4.trans ?_) (h3.trans ?_) (h2.trans ?_) <;> omega

/-- C33: every integer is the Windows integer of its colour. -/
theorem C33_win_color_onto (n : UInt32) : (Color.fromWinColor n).toWinColor = n := by
  rw [← UInt32.toNat_inj, winColor_toNat]
  obtain ⟨h1, h2, h3, h4⟩ := fromWinColor_toNat n
  rw [h1, h2, h3, h4]
  have := n.toNat_lt
  omega

/-- C33: red, green and blue survive the `0xRRGGBB` integer; the spare byte is dropped. -/
theorem C33_rgb_roundtrip (c : Color) : Color.fromRgb c.toRgb = { c with unused := 0 } := by
  have hr := c.r.toNat_lt
  have hg := c.g.toNat_lt
  have hb := c.b.toNat_lt
  obtain ⟨h1, h2, h3, h4⟩ := fromRgb_toNat c.toRgb
  rw [rgb_toNat] at h2 h3 h4
  refine Color.ext_toNat h1 (h2.trans ?_) (h3.trans ?_) (h4.trans ?_) <;>
    simp only <;> omega

/-- C33: all four components survive the text form used in JSON. -/
theorem C33_text_roundtrip (c : Color) : Color.ofJ c.toJ = .ok c := color_text_back c

/-- C33: the text forms of different colours are different. -/
theorem C33_text_distinct (a b : Color) (h : a.text = b.text) : a = b := by
  have h1 := color_text_back a
  rw [h, color_text_back b] at h1
  exact (Except.ok.inj h1).symm

/-- C33: all four components survive the four bytes in the file; the bytes are red, green, blue and
the spare byte. -/
theorem C33_file_form (c : Color) (rest : Bytes) (n : Nat) (hn : 4 ≤ n) (t : Tag) (w : Bool)
    (raw : Bytes) :
    c.bytes = [c.r, c.g, c.b, c.unused] ∧
    getColor ⟨c.bytes ++ rest, n, t, w, raw⟩ = .ok (c, ⟨rest, n - 4, t, w, raw⟩) := by
  refine ⟨rfl, ?_⟩
  obtain ⟨m, rfl⟩ : ∃ m, n = 4 + m := ⟨n - 4, by omega⟩
  rw [Nat.add_sub_cancel_left]
  have h : RT getColor c.bytes c := RT.bind (p := [c.r]) (getU8_rt c.r) (RT.bind (p := [c.g]) (getU8_rt c.g)
    (RT.bind (p := [c.b]) (getU8_rt c.b) (RT.map (getU8_rt c.unused))))
  exact h rest m t w raw

/-- C33: a text is accepted only if it has 7 bytes, the first of which is `#`, or 9 bytes, the third
of which is `#`; everything else is refused. -/
theorem C33_accepted_shape (s : Str) (c : Color) (h : Color.ofText s = .ok c) :
    ((encodeUtf8 s).length = 7 ∧ (encodeUtf8 s)[0]? = some 0x23 ∧ c.unused = 0) ∨
    ((encodeUtf8 s).length = 9 ∧ (encodeUtf8 s)[2]? = some 0x23) := by
  unfold Color.ofText at h
  split at h
  · next e =>
    rw [e]
    split at h
    · cases h
    · split at h
      · cases h
      · next h0 =>
        left
        refine ⟨rfl, ?_, ?_⟩
        · simpa using h0
        · repeat' split at h
          all_goals cases h
          rfl
  · next e =>
    rw [e]
    split at h
    · cases h
    · split at h
      · cases h
      · next h0 =>
        right
        exact ⟨rfl, by simpa using h0⟩
  · cases h

/-- C33: the parser is more liberal than the printer: upper case digits and a plus sign in place of
a leading digit are accepted too. -/
theorem C33_liberal_parser :
    Color.ofText "#ABCDEF".toList = .ok ⟨0, 0xab, 0xcd, 0xef⟩ ∧
    Color.ofText "#+1+2+3".toList = .ok ⟨0, 1, 2, 3⟩ ∧
    Color.ofText "#12345".toList = .error .io ∧
    Color.ofText "#12345g".toList = .error .io := by decide

example : (Color.mk 0x80 0x12 0x34 0x56).text = "80#123456".toList := by decide

end Vpin
