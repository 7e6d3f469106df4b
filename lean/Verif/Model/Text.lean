import Verif.Model.Bytes
/-
Text encodings used by the file format.
-/
namespace Vpin

/-! ## Latin-1  (`encoding_rs::mem::{decode_latin1, encode_latin1_lossy}`) -/

/-- `decode_latin1`: every byte is the code point of the same number.
/repo/src/vpx/biff.rs:182, 230; external crate `encoding_rs`, documented behaviour. -/
def latin1Char (b : UInt8) : Char := Char.ofNat b.toNat

/-- one character for every byte (used in /repo/src/vpx/biff.rs:188-217) -/
def decodeLatin1 (bs : Bytes) : Str := bs.map latin1Char

/-- One character of `encode_latin1_lossy`; `none` when the character is above U+00FF,
where the crate panics in debug builds and produces unspecified bytes in release builds. (used in
/repo/src/vpx/biff.rs:616-623) -/
def latin1Byte (c : Char) : Option UInt8 :=
  if c.toNat < 256 then some (UInt8.ofNat c.toNat) else none

/-- `encode_latin1_lossy` (/repo/src/vpx/biff.rs:605, 611, 618): the whole string must be
Latin-1, otherwise the call is a panic (debug) or garbage (release), both `Err.panic` here. -/
def encodeLatin1 : Str → Res Bytes
  | [] => .ok []
  | c :: cs =>
    match latin1Byte c, encodeLatin1 cs with
    | some b, .ok bs => .ok (b :: bs)
    | _, _ => .error .panic

/-- Cut at the first NUL byte, `pos_0` in /repo/src/vpx/biff.rs:173-181, 206-214, 220-228. -/
def cutNul : Bytes → Bytes
  | [] => []
  | b :: bs => if b = 0 then [] else b :: cutNul bs

/-! ## UTF-16LE  (/repo/src/vpx/utf16.rs:3-24) -/

/-- `char::encode_utf16` (used in /repo/src/vpx/biff.rs:635-639) -/
def utf16Units (c : Char) : List UInt16 :=
  if c.toNat < 0x10000 then [UInt16.ofNat c.toNat]
  else [UInt16.ofNat (0xD800 + (c.toNat - 0x10000) / 0x400),
        UInt16.ofNat (0xDC00 + (c.toNat - 0x10000) % 0x400)]

/-- `str::encode_utf16` (used in /repo/src/vpx/biff.rs:635-639) -/
def encodeUtf16 (s : Str) : List UInt16 := s.flatMap utf16Units

/-- `encode_utf16le`, /repo/src/vpx/utf16.rs:19-24 -/
def encodeUtf16le (s : Str) : Bytes := (encodeUtf16 s).flatMap le16

/-- `bytes.chunks_exact(2).map(u16::from_le_bytes)` with the even-length check,
/repo/src/vpx/utf16.rs:4-14 -/
def units16 : Bytes → Res (List UInt16)
  | [] => .ok []
  | [_] => .error .io
  | a :: b :: rest =>
    match units16 rest with
    | .ok us => .ok (ofLe16 [a, b] :: us)
    | .error e => .error e

/-- `String::from_utf16` (std): surrogate pairs are combined, an unpaired surrogate is an error. (used in
/repo/src/vpx/biff.rs:245-252) -/
def fromUtf16 : List UInt16 → Res Str
  | [] => .ok []
  | u :: us =>
    if u.toNat < 0xD800 ∨ 0xE000 ≤ u.toNat then
      match fromUtf16 us with
      | .ok s => .ok (Char.ofNat u.toNat :: s)
      | .error e => .error e
    else if 0xDC00 ≤ u.toNat then .error .io
    else match us with
      | [] => .error .io
      | v :: vs =>
        if 0xDC00 ≤ v.toNat ∧ v.toNat < 0xE000 then
          match fromUtf16 vs with
          | .ok s => .ok (Char.ofNat (0x10000 + (u.toNat - 0xD800) * 0x400 + (v.toNat - 0xDC00)) :: s)
          | .error e => .error e
        else .error .io

/-- `decode_utf16le`, /repo/src/vpx/utf16.rs:3-17 -/
def decodeUtf16le (bs : Bytes) : Res Str :=
  match units16 bs with
  | .ok us => fromUtf16 us
  | .error e => .error e

/-! ## UTF-8  (`String::into_bytes`, `String::from_utf8` of std) -/

/-- `char::encode_utf8` (used in /repo/src/vpx/biff.rs:610-614) -/
def utf8Bytes (c : Char) : Bytes :=
  let n := c.toNat
  if n < 0x80 then [UInt8.ofNat n]
  else if n < 0x800 then [UInt8.ofNat (0xC0 + n / 64), UInt8.ofNat (0x80 + n % 64)]
  else if n < 0x10000 then
    [UInt8.ofNat (0xE0 + n / 4096), UInt8.ofNat (0x80 + n / 64 % 64), UInt8.ofNat (0x80 + n % 64)]
  else
    [UInt8.ofNat (0xF0 + n / 262144), UInt8.ofNat (0x80 + n / 4096 % 64),
     UInt8.ofNat (0x80 + n / 64 % 64), UInt8.ofNat (0x80 + n % 64)]

/-- `String::into_bytes` (used in /repo/src/vpx/biff.rs:616-623) -/
def encodeUtf8 (s : Str) : Bytes := s.flatMap utf8Bytes

/-- is a continuation byte `10xxxxxx` (used in /repo/src/vpx/biff.rs:188-217) -/
def isCont (b : UInt8) : Bool := 0x80 ≤ b.toNat && b.toNat < 0xC0

/-- First character of a byte sequence in strict UTF-8 (RFC 3629: no overlong forms, no
surrogates, at most U+10FFFF), as accepted by `core::str::from_utf8`; `none` if invalid. (used in
/repo/src/vpx/biff.rs:188-217) -/
def utf8Head : Bytes → Option (Char × Bytes)
  | [] => none
  | a :: rest =>
    let n := a.toNat
    if n < 0x80 then some (Char.ofNat n, rest)
    else if n < 0xC2 then none
    else if n < 0xE0 then
      match rest with
      | b :: rest =>
        if isCont b then some (Char.ofNat ((n - 0xC0) * 64 + (b.toNat - 0x80)), rest) else none
      | _ => none
    else if n < 0xF0 then
      match rest with
      | b :: c :: rest =>
        let cp := (n - 0xE0) * 4096 + (b.toNat - 0x80) * 64 + (c.toNat - 0x80)
        if isCont b && isCont c && 0x800 ≤ cp && !(0xD800 ≤ cp && cp < 0xE000) then
          some (Char.ofNat cp, rest)
        else none
      | _ => none
    else if n < 0xF5 then
      match rest with
      | b :: c :: d :: rest =>
        let cp := (n - 0xF0) * 262144 + (b.toNat - 0x80) * 4096 + (c.toNat - 0x80) * 64 + (d.toNat - 0x80)
        if isCont b && isCont c && isCont d && 0x10000 ≤ cp && cp < 0x110000 then
          some (Char.ofNat cp, rest)
        else none
      | _ => none
    else none

/-- `String::from_utf8` with `fuel` at least the number of bytes. (used in /repo/src/vpx/biff.rs:188-217) -/
def decodeUtf8F : Nat → Bytes → Option Str
  | _, [] => some []
  | 0, _ => none
  | f + 1, bs =>
    match utf8Head bs with
    | none => none
    | some (c, rest) =>
      match decodeUtf8F f rest with
      | some s => some (c :: s)
      | none => none

/-- `String::from_utf8` (used in /repo/src/vpx/biff.rs:188-217) -/
def decodeUtf8 (bs : Bytes) : Option Str := decodeUtf8F bs.length bs

/-! ## StringWithEncoding  (/repo/src/vpx/model.rs:51-126) -/

/-- `StringEncoding`, /repo/src/vpx/model.rs:53-56 -/
inductive StringEncoding where
  | latin1
  | utf8
  deriving DecidableEq, Repr

/-- `StringWithEncoding`, /repo/src/vpx/model.rs:61-64 -/
structure StringWithEncoding where
  encoding : StringEncoding
  string : Str
  deriving DecidableEq, Repr

/-- `From<&[u8]>` / `From<Vec<u8>>` for `StringWithEncoding`, /repo/src/vpx/model.rs:88-117 -/
def StringWithEncoding.ofBytes (bs : Bytes) : StringWithEncoding :=
  match decodeUtf8 bs with
  | some s => ⟨.utf8, s⟩
  | none => ⟨.latin1, decodeLatin1 bs⟩

/-- `StringWithEncoding` to bytes, /repo/src/vpx/biff.rs:616-623 and model.rs:119-126 -/
def StringWithEncoding.toBytes (s : StringWithEncoding) : Res Bytes :=
  match s.encoding with
  | .latin1 => encodeLatin1 s.string
  | .utf8 => .ok (encodeUtf8 s.string)

end Vpin
