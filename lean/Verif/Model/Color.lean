import Verif.Model.Common
import Verif.Model.Json
/-
/repo/src/vpx/color.rs: the integer and text forms of colours.
-/
namespace Vpin

/-- `Color::from_rgb`, /repo/src/vpx/color.rs:103-108 -/
def Color.fromRgb (arg : UInt32) : Color where
  r := ((arg >>> 16) &&& 0xff).toUInt8
  g := ((arg >>> 8) &&& 0xff).toUInt8
  b := (arg &&& 0xff).toUInt8
  unused := 0

/-- `Color::to_rgb`, /repo/src/vpx/color.rs:110-115 -/
def Color.toRgb (c : Color) : UInt32 :=
  (c.r.toUInt32 <<< 16) ||| (c.g.toUInt32 <<< 8) ||| c.b.toUInt32

/-- `Color::to_win_color`, /repo/src/vpx/color.rs:120-126 -/
def Color.toWinColor (c : Color) : UInt32 :=
  (c.unused.toUInt32 <<< 24) ||| c.r.toUInt32 ||| (c.g.toUInt32 <<< 8) ||| (c.b.toUInt32 <<< 16)

/-- `Color::from_win_color`, /repo/src/vpx/color.rs:128-134 -/
def Color.fromWinColor (arg : UInt32) : Color where
  unused := ((arg >>> 24) &&& 0xff).toUInt8
  r := (arg &&& 0xff).toUInt8
  g := ((arg >>> 8) &&& 0xff).toUInt8
  b := ((arg >>> 16) &&& 0xff).toUInt8

/-- a lower case hexadecimal digit (used in /repo/src/vpx/color.rs:41-58) -/
def hexDigit (n : Nat) : Char :=
  if n < 10 then Char.ofNat (0x30 + n) else Char.ofNat (0x61 + (n - 10))

/-- `format!("{:02x}", b)` -/
def hex2 (b : UInt8) : Str := [hexDigit (b.toNat / 16), hexDigit (b.toNat % 16)]

/-- `char::to_digit(16)` of one byte of ASCII (used in /repo/src/vpx/color.rs:60-100) -/
def hexVal (b : UInt8) : Option Nat :=
  if 0x30 ≤ b.toNat ∧ b.toNat ≤ 0x39 then some (b.toNat - 0x30)
  else if 0x61 ≤ b.toNat ∧ b.toNat ≤ 0x66 then some (b.toNat - 0x61 + 10)
  else if 0x41 ≤ b.toNat ∧ b.toNat ≤ 0x46 then some (b.toNat - 0x41 + 10)
  else none

/-- `u8::from_str_radix(s, 16)` for the two bytes `a b`: a leading `+` is allowed (std) (used in
/repo/src/vpx/color.rs:60-100) -/
def fromHex2 (a b : UInt8) : Res UInt8 :=
  match (if a = 0x2b then some 0 else hexVal a), hexVal b with
  | some x, some y => .ok (UInt8.ofNat (16 * x + y))
  | _, _ => .error .io

/-- `str::is_char_boundary(i)` for `i < len` (used in /repo/src/vpx/color.rs:60-100) -/
def charBoundary (b : UInt8) : Bool := !isCont b

/-- `Serialize for Color`, /repo/src/vpx/color.rs:40-57 -/
def Color.text (c : Color) : Str :=
  if c.unused = 0 then ['#'] ++ hex2 c.r ++ hex2 c.g ++ hex2 c.b
  else hex2 c.unused ++ ['#'] ++ hex2 c.r ++ hex2 c.g ++ hex2 c.b

/-- its JSON value, /repo/src/vpx/color.rs:41-58 -/
def Color.toJ (c : Color) : J := .str c.text

/-- `Deserialize for Color`, /repo/src/vpx/color.rs:60-100. The text is handled as its UTF-8 bytes;
`&s[i..j]` panics if `i` or `j` is inside a character. The slices are taken in the order of the
code, so that an error of an earlier one comes first. -/
def Color.ofText (s : Str) : Res Color :=
  match encodeUtf8 s with
  | [b0, b1, b2, b3, b4, b5, b6] =>
    if !charBoundary b1 then .error .panic
    else if b0 ≠ 0x23 then .error .io
    else if !charBoundary b3 then .error .panic
    else match fromHex2 b1 b2 with
    | .error e => .error e
    | .ok r =>
      if !charBoundary b5 then .error .panic
      else match fromHex2 b3 b4 with
      | .error e => .error e
      | .ok g => match fromHex2 b5 b6 with
        | .error e => .error e
        | .ok b => .ok ⟨0, r, g, b⟩
  | [b0, b1, b2, b3, b4, b5, b6, b7, b8] =>
    if !charBoundary b2 || !charBoundary b3 then .error .panic
    else if b2 ≠ 0x23 then .error .io
    else match fromHex2 b0 b1 with
    | .error e => .error e
    | .ok unused =>
      if !charBoundary b5 then .error .panic
      else match fromHex2 b3 b4 with
      | .error e => .error e
      | .ok r =>
        if !charBoundary b7 then .error .panic
        else match fromHex2 b5 b6 with
        | .error e => .error e
        | .ok g => match fromHex2 b7 b8 with
          | .error e => .error e
          | .ok b => .ok ⟨unused, r, g, b⟩
  | _ => .error .io

/-- from its JSON value, /repo/src/vpx/color.rs:60-100 -/
def Color.ofJ : J → Res Color
  | .str s => Color.ofText s
  | _ => .error .io

end Vpin
