import Verif.Model.Text
import Lean
/-
The BIFF record reader and writer, /repo/src/vpx/biff.rs.

A record is `u32 size | 4 byte tag | payload`, where `size` counts the tag and the payload.
-/
namespace Vpin

/-! ## Tags -/

/-- A tag as the Rust code sees it: the `String` made of the bytes before the first NUL.
Represented by the little-endian number of these bytes (injective on NUL-free byte lists,
`Lemmas/Biff.lean: leNat_inj`), so that `==` on the Rust strings is `==` on numbers. /repo/src/vpx/biff.rs:74-76. -/
abbrev Tag := Nat

/-- `tag!"VCEN"` is the number of the tag "VCEN". -/
macro:max "tag!" s:str : term => do
  let n := s.getString.toUTF8.toList.foldr (fun b acc => b.toNat + 256 * acc) 0
  return Lean.Syntax.mkNumLit (toString n)

/-- Tag read from (at most) four bytes: `get_str(4)`, /repo/src/vpx/biff.rs:172-186 -/
def tagOfBytes (bs : Bytes) : Tag := leNat (cutNul bs)

/-- Four zero-padded bytes of a tag, /repo/src/vpx/biff.rs:560-565 -/
def tagBytes (t : Tag) : Bytes := [byteAt t 0, byteAt t 1, byteAt t 2, byteAt t 3]

/-- A string of 1 to 4 non-NUL bytes. (used in /repo/src/vpx/biff.rs:556-567) -/
def ValidTag (t : Tag) : Prop := t ≠ 0 ∧ tagOfBytes (tagBytes t) = t

/-- decidable (used in /repo/src/vpx/biff.rs:556-567) -/
instance (t : Tag) : Decidable (ValidTag t) := inferInstanceAs (Decidable (_ ∧ _))

/-- the end marker "ENDB", /repo/src/vpx/biff.rs:79 -/
abbrev ENDB : Tag := tag!"ENDB"

/-! ## Reader -/

/-- `BiffReader`, /repo/src/vpx/biff.rs:22-29.
`rest` is `data[pos..]` (empty when `pos >= data.len()`), `brr` is
`bytes_in_record_remaining`, `tag` the current tag (0 for the initial ""), `warn` is
`warn_remaining`, and `raw` holds the four bytes of the current tag as stored (needed only
for `get_record_data(true)`, which re-reads them as `data[pos - 4..]`). `record_start` is
never used by the code and is dropped. -/
structure Rd where
  rest : Bytes
  brr : Nat
  tag : Tag := 0
  warn : Bool := true
  raw : Bytes := []
  deriving DecidableEq, Repr

/-- `BiffReader::new`, /repo/src/vpx/biff.rs:39-49 -/
def Rd.new (data : Bytes) : Rd := { rest := data, brr := 0 }

/-- `BiffReader::is_eof`, /repo/src/vpx/biff.rs:78-80 -/
def Rd.isEof (r : Rd) : Bool := r.rest.isEmpty || r.tag == ENDB

/-- A reader method `fn(&mut self, ..) -> α` that may panic. /repo/src/vpx/biff.rs:38-508. -/
abbrev R (α : Type) := StateT Rd (Except Err) α

/-- a panic (used in /repo/src/vpx/biff.rs:87-91) -/
def R.panic {α : Type} : R α := fun _ => .error .panic

/-- `&self.data[self.pos..self.pos + n]; self.pos += n` without touching the record count,
`get_no_remaining_update`, /repo/src/vpx/biff.rs:87-91 -/
def takeN (n : Nat) : R Bytes := fun r =>
  if n ≤ r.rest.length then .ok (r.rest.take n, { r with rest := r.rest.drop n })
  else .error .panic

/-- `self.bytes_in_record_remaining -= n` (panics on underflow in debug builds and, through
`sub_remaining` /repo/src/vpx/biff.rs:476-485, also in release builds) -/
def subRem (n : Nat) : R Unit := fun r =>
  if n ≤ r.brr then .ok ((), { r with brr := r.brr - n }) else .error .panic

/-- `get`, /repo/src/vpx/biff.rs:82-85 -/
def getN (n : Nat) : R Bytes := do
  let d ← takeN n
  subRem n
  pure d

/-- `get_bool`, /repo/src/vpx/biff.rs:97-110: nonzero means true -/
def getBool : R Bool := do return (← getN 4) != [0, 0, 0, 0]
/-- `get_u8`, /repo/src/vpx/biff.rs:112-116 -/
def getU8 : R UInt8 := do return UInt8.ofNat (leNat (← getN 1))
/-- `get_u8_no_remaining_update`, /repo/src/vpx/biff.rs:118-122 -/
def getU8N : R UInt8 := do return UInt8.ofNat (leNat (← takeN 1))
/-- `get_u16`, /repo/src/vpx/biff.rs:124-128 -/
def getU16 : R UInt16 := do return ofLe16 (← getN 2)
/-- `get_u16_no_remaining_update`, /repo/src/vpx/biff.rs:130-134 -/
def getU16N : R UInt16 := do return ofLe16 (← takeN 2)
/-- `get_u32`, /repo/src/vpx/biff.rs:136-140 -/
def getU32 : R UInt32 := do return ofLe32 (← getN 4)
/-- `get_u32_no_remaining_update`, /repo/src/vpx/biff.rs:142-146 -/
def getU32N : R UInt32 := do return ofLe32 (← takeN 4)
/-- `get_i32` / `get_32`, /repo/src/vpx/biff.rs:287-292, 148-152 -/
def getI32 : R Int32 := do return (ofLe32 (← getN 4)).toInt32
/-- `get_f32` (bit pattern), /repo/src/vpx/biff.rs:159-170 -/
def getF32 : R F32 := do return ofLe32 (← getN 4)
/-- `get_double` (bit pattern), /repo/src/vpx/biff.rs:273-278 -/
def getF64 : R F64 := do return ofLe64 (← getN 8)
/-- `get_u64`, /repo/src/vpx/biff.rs:301-306 -/
def getU64 : R UInt64 := do return ofLe64 (← getN 8)

/-- The scan for NUL and the slice in `get_str*`, /repo/src/vpx/biff.rs:173-183, 206-215, 220-229.
The scan indexes `data[pos + p]` for `p < count` and stops at the first NUL, so it panics only
if the data ends before a NUL is found; `pos` always advances by `count`, possibly past the
end of the data. -/
def takeCut (n : Nat) : R Bytes := fun r =>
  if n ≤ r.rest.length ∨ 0 ∈ r.rest then
    .ok (cutNul (r.rest.take n), { r with rest := r.rest.drop n })
  else .error .panic

/-- `get_str`, /repo/src/vpx/biff.rs:172-186 -/
def getStr (n : Nat) : R Str := do
  let d ← takeCut n
  subRem n
  pure (decodeLatin1 d)

/-- `get_str_no_remaining_update`, /repo/src/vpx/biff.rs:219-233 -/
def getStrN (n : Nat) : R Str := do
  let d ← takeCut n
  pure (decodeLatin1 d)

/-- `get_str_with_encoding_no_remaining_update`, /repo/src/vpx/biff.rs:188-217 -/
def getStrEncN (n : Nat) : R StringWithEncoding := do
  let d ← takeCut n
  pure (StringWithEncoding.ofBytes d)

/-- `get_string`, /repo/src/vpx/biff.rs:235-238 -/
def getString : R Str := do
  let n ← getU32
  getStr n.toNat

/-- `get_string_no_remaining_update`, /repo/src/vpx/biff.rs:240-243 -/
def getStringN : R Str := do
  let n ← getU32N
  getStrN n.toNat

/-- `.unwrap()` (used in /repo/src/vpx/biff.rs:130-134) -/
def R.ofRes {α : Type} : Res α → R α
  | .ok a => pure a
  | .error _ => R.panic

/-- `get_wide_string`, /repo/src/vpx/biff.rs:245-252 -/
def getWide : R Str := do
  let n ← getU32
  let d ← getN n.toNat
  R.ofRes (decodeUtf16le d)

/-- `tag`, /repo/src/vpx/biff.rs:74-76 -/
def getTag : R Tag := fun r => .ok (r.tag, r)

/-- `get_record_data(false)`, /repo/src/vpx/biff.rs:380-392: refuses to read up to the very end
of the data (`>=`) -/
def getRecordData : R Bytes := fun r =>
  if r.rest.length ≤ r.brr then .error .panic
  else .ok (r.rest.take r.brr, { r with rest := r.rest.drop r.brr, brr := 0 })

/-- `get_record_data(true)`, /repo/src/vpx/biff.rs:380-392, called right after `next`, where
`data[pos - 4..pos]` are the stored tag bytes (fewer than four when the data ends inside them,
where the slice panics) -/
def getRecordDataWithTag : R Bytes := fun r =>
  if r.raw.length < 4 ∨ r.rest.length < r.brr then .error .panic
  else .ok (r.raw ++ r.rest.take r.brr, { r with rest := r.rest.drop r.brr, brr := 0 })

/-- `get_data_no_remaining_update`, /repo/src/vpx/biff.rs:394-401 -/
def getDataN : R Bytes := do
  let n ← getU32N
  let d ← takeN n.toNat
  modify fun r => { r with brr := 0 }
  pure d

/-- `get_data(count)`, /repo/src/vpx/biff.rs:403-408 -/
def getData (n : Nat) : R Bytes := do
  let d ← takeN n
  modify fun r => { r with brr := 0 }
  pure d

/-- `skip_tag`, /repo/src/vpx/biff.rs:424-429 -/
def skipTag : R Unit := fun r => .ok ((), { r with rest := r.rest.drop r.brr, brr := 0 })

/-- `skip_end_tag(count)`, /repo/src/vpx/biff.rs:419-422 -/
def skipEndTag (n : Nat) : R Unit := fun r => .ok ((), { r with rest := r.rest.drop n, brr := 0 })

/-- `next`, /repo/src/vpx/biff.rs:431-463 -/
def next : R Unit := fun r =>
  let rest := r.rest.drop r.brr
  if rest.length < 4 then .error .panic
  else
    let size := (ofLe32 (rest.take 4)).toNat
    let rest := rest.drop 4
    if ¬ (4 ≤ rest.length ∨ 0 ∈ rest) then .error .panic
    else if size < 4 then .error .panic
    else
      let tag := tagOfBytes (rest.take 4)
      let raw := rest.take 4
      let rest := rest.drop 4
      if tag = 0 then .error .panic
      else if r.warn && tag == ENDB && !rest.isEmpty then .error .panic
      else .ok ((), { rest := rest, brr := size - 4, tag := tag, warn := r.warn, raw := raw })

/-- `child_reader`, /repo/src/vpx/biff.rs:465-474 -/
def Rd.child (r : Rd) : Rd := { rest := r.rest, brr := 0, tag := 0, warn := false }

/-- Scan of `data_until`, /repo/src/vpx/biff.rs:487-507: number of bytes before the first
occurrence of `pat`; `none` when the scan runs off the end (a panic in Rust, either by the
slice `data[pos..pos + tag.len()]` or by the explicit `panic!`). -/
def findSub (pat : Bytes) : Bytes → Option Nat
  | [] => none
  | b :: bs =>
    if (b :: bs).take pat.length = pat then some 0
    else if bs.length + 1 < pat.length then none
    else (findSub pat bs).map (· + 1)

/-- `data_until`, /repo/src/vpx/biff.rs:487-507 -/
def dataUntil (pat : Bytes) : R Bytes := fun r =>
  match findSub pat r.rest with
  | none => .error .panic
  | some n =>
    if n < 4 then .error .panic
    else .ok (r.rest.take (n - 4), { r with rest := r.rest.drop (n - 4), brr := 0 })

/-! ## The record loop

Every structured reader is
`loop { reader.next(WARN); if reader.is_eof() { break; } match tag.as_str() { .. } }`,
for example /repo/src/vpx/gameitem/bumper.rs:229-318. -/

/-- The loop, with fuel (see `Props/Termination.lean` for why it never runs out). (used in /repo/src/vpx/biff.rs:431-463) -/
def loop {σ : Type} (h : Tag → σ → R σ) : Nat → σ → R σ
  | 0, _ => fun _ => .error .fuel
  | f + 1, s => fun r =>
    match next r with
    | .error e => .error e
    | .ok (_, r1) =>
      if r1.isEof then .ok (s, r1)
      else
        match h r1.tag s r1 with
        | .error e => .error e
        | .ok (s', r2) => loop h f s' r2

/-- Arms of a `match tag` over a structure `σ`. (used in /repo/src/vpx/collection.rs:29) -/
abbrev Handlers (σ : Type) := List (Tag × (σ → R σ))

/-- Tag of the default arm `_ => ..` in a list of arms. (The empty tag: `next` panics on it, so no
record has it.) (used in /repo/src/vpx/collection.rs:46) -/
abbrev anyTag : Tag := 0

/-- `match tag { "A" => .., .., _ => skip_tag() }`; an arm for `anyTag` replaces the default
arm. (used in /repo/src/vpx/collection.rs:29) -/
def dispatch {σ : Type} (hs : Handlers σ) (t : Tag) (s : σ) : R σ :=
  match hs.lookup t with
  | some f => f s
  | none =>
    match hs.lookup anyTag with
    | some f => f s
    | none => do skipTag; pure s

/-- An arm `"TAG" => { s.field = reader.get_x(); }` (used in /repo/src/vpx/collection.rs:31) -/
def fld {σ α : Type} (g : R α) (set : α → σ → σ) (s : σ) : R σ := do
  let v ← g
  pure (set v s)

/-- Read a structure with these arms from `r`. Fuel: the length of the data. (used in /repo/src/vpx/collection.rs:15-59) -/
def readWith {σ : Type} (hs : Handlers σ) (s : σ) : R σ := fun r =>
  loop (dispatch hs) (r.rest.length + 1) s r

/-- `T::biff_read(&mut BiffReader::new(data))`, /repo/src/vpx/biff.rs:10 -/
def readStruct {σ : Type} (hs : Handlers σ) (s : σ) (data : Bytes) : Res σ :=
  match readWith hs s (Rd.new data) with
  | .ok (v, _) => .ok v
  | .error e => .error e

/-- Read a sub-stream:
`let mut sub = reader.child_reader(); let v = T::biff_read(&mut sub); let p = sub.pos();
reader.skip_end_tag(p)`, for example /repo/src/vpx/gameitem/dragpoint.rs:142-202. -/
def getChild {σ : Type} (g : R σ) : R σ := fun r =>
  match g r.child with
  | .error e => .error e
  | .ok (v, r') => .ok (v, { r with rest := r'.rest, brr := 0 })

/-! ## Writer -/

/-- `BiffWriter`, /repo/src/vpx/biff.rs:510-515; `tag = 0` is the empty string. -/
structure Wr where
  data : Bytes := []
  tagStart : Nat := 0
  tag : Tag := 0
  recordSize : Nat := 0
  deriving DecidableEq, Repr

/-- `self.data[at..at + 4].copy_from_slice(bs)` (used in /repo/src/vpx/biff.rs:537-545) -/
def patch (data : Bytes) (at' : Nat) (bs : Bytes) : Bytes :=
  data.take at' ++ bs ++ data.drop (at' + bs.length)

/-- `end_tag`, /repo/src/vpx/biff.rs:537-545 -/
def Wr.endTag (w : Wr) : Res Wr :=
  if w.tag = 0 then .ok w
  else if w.recordSize < 2 ^ 32 then
    .ok { w with data := patch w.data w.tagStart (le32 (UInt32.ofNat w.recordSize)), tag := 0 }
  else .error .panic

/-- `end_tag_no_size`, /repo/src/vpx/biff.rs:547-554 -/
def Wr.endTagNoSize (w : Wr) : Wr :=
  if w.tag = 0 then w
  else { w with data := patch w.data w.tagStart (le32 4), tag := 0 }

/-- `new_tag`, /repo/src/vpx/biff.rs:556-567 -/
def Wr.newTag (w : Wr) (t : Tag) : Res Wr :=
  match w.endTag with
  | .error e => .error e
  | .ok w => .ok { data := w.data ++ [0, 0, 0, 0] ++ tagBytes t, tagStart := w.data.length,
                   tag := t, recordSize := 4 }

/-- `write_data` and the other untagged `write_*`, which all append the bytes and add their
number to `record_size`, /repo/src/vpx/biff.rs:569-657 -/
def Wr.write (w : Wr) (bs : Bytes) : Wr :=
  { w with data := w.data ++ bs, recordSize := w.recordSize + bs.length }

/-- `close(write_endb)`, /repo/src/vpx/biff.rs:773-778 -/
def Wr.close (w : Wr) (endb : Bool) : Res Wr :=
  if endb then
    match w.newTag ENDB with
    | .error e => .error e
    | .ok w => w.endTag
  else w.endTag

/-- One `write_tagged_*` call.
`sized`: `new_tag(t); write..; end_tag()`.
`unsized`: `new_tag(t); write..; end_tag_no_size()`.
`fail`: computing the payload panics (text not Latin-1, or too long for its length prefix). /repo/src/vpx/biff.rs:659-780. -/
inductive WOp where
  | sized (t : Tag) (payload : Bytes)
  | unsized (t : Tag) (payload : Bytes)
  | fail
  deriving DecidableEq, Repr

/-- effect of one call on the writer, /repo/src/vpx/biff.rs:659-783 -/
def WOp.run (w : Wr) : WOp → Res Wr
  | .sized t p =>
    match w.newTag t with
    | .error e => .error e
    | .ok w => (w.write p).endTag
  | .unsized t p =>
    match w.newTag t with
    | .error e => .error e
    | .ok w => .ok (w.write p).endTagNoSize
  | .fail => .error .panic

/-- a sequence of `write_tagged_*` calls (used in /repo/src/vpx/collection.rs:61-72) -/
def runOps (w : Wr) : List WOp → Res Wr
  | [] => .ok w
  | op :: ops =>
    match op.run w with
    | .error e => .error e
    | .ok w => runOps w ops

/-- `let mut w = BiffWriter::new(); ..calls..; w.close(true); w.get_data()` (used in /repo/src/vpx/mod.rs:863-871) -/
def writeBiff (ops : List WOp) : Res Bytes :=
  match runOps {} ops with
  | .error e => .error e
  | .ok w =>
    match w.close true with
    | .error e => .error e
    | .ok w => .ok w.data

/-! ### Payloads and the `write_tagged_*` helpers -/

/-- a payload that may fail to be computed (used in /repo/src/vpx/biff.rs:755-759) -/
def WOp.sizedR (t : Tag) : Res Bytes → WOp
  | .ok p => .sized t p
  | .error _ => .fail

/-- the same without a size (used in /repo/src/vpx/biff.rs:761-765) -/
def WOp.unsizedR (t : Tag) : Res Bytes → WOp
  | .ok p => .unsized t p
  | .error _ => .fail

/-- `write_bool`, /repo/src/vpx/biff.rs:641-647 -/
def pBool (b : Bool) : Bytes := le32 (if b then 1 else 0)

/-- a length-prefixed byte sequence; `len.try_into().unwrap()` panics from 2^32 on,
`write_length_prefixed_data`, /repo/src/vpx/biff.rs:649-652 -/
def pLenData (d : Bytes) : Res Bytes :=
  if d.length < 2 ^ 32 then .ok (le32 (UInt32.ofNat d.length) ++ d) else .error .panic

/-- `write_string`, /repo/src/vpx/biff.rs:610-614 -/
def pString (s : Str) : Res Bytes :=
  match encodeLatin1 s with
  | .error e => .error e
  | .ok d => pLenData d

/-- `write_short_string` (one length byte), /repo/src/vpx/biff.rs:604-608 -/
def pShortString (s : Str) : Res Bytes :=
  match encodeLatin1 s with
  | .error e => .error e
  | .ok d => if d.length < 256 then .ok (UInt8.ofNat d.length :: d) else .error .panic

/-- `write_string_empty_zero`, /repo/src/vpx/biff.rs:625-633 -/
def pStringEmptyZero (s : Str) : Res Bytes :=
  if s.isEmpty then .ok (le32 1 ++ [0]) else pString s

/-- `write_wide_string`, /repo/src/vpx/biff.rs:635-639 -/
def pWide (s : Str) : Res Bytes := pLenData (encodeUtf16le s)

/-- `write_string_with_encoding`, /repo/src/vpx/biff.rs:616-623 -/
def pStringEnc (s : StringWithEncoding) : Res Bytes :=
  match s.toBytes with
  | .error e => .error e
  | .ok d => pLenData d

/-- `write_tagged_bool`, /repo/src/vpx/biff.rs:664-668 -/
def wBool (t : Tag) (b : Bool) : WOp := .sized t (pBool b)
/-- `write_tagged_f32`, /repo/src/vpx/biff.rs:670-674 -/
def wF32 (t : Tag) (x : F32) : WOp := .sized t (le32 x)
/-- `write_tagged_u32`, /repo/src/vpx/biff.rs:676-680 -/
def wU32 (t : Tag) (x : UInt32) : WOp := .sized t (le32 x)
/-- `write_tagged_i32`, /repo/src/vpx/biff.rs:682-686 -/
def wI32 (t : Tag) (x : Int32) : WOp := .sized t (le32 x.toUInt32)
/-- `write_tagged_string`, /repo/src/vpx/biff.rs:688-692 -/
def wString (t : Tag) (s : Str) : WOp := .sizedR t (pString s)
/-- `write_tagged_wide_string`, /repo/src/vpx/biff.rs:710-714 -/
def wWide (t : Tag) (s : Str) : WOp := .sizedR t (pWide s)
/-- `write_tagged_string_with_encoding_no_size`, /repo/src/vpx/biff.rs:700-708 -/
def wStringEncNoSize (t : Tag) (s : StringWithEncoding) : WOp := .unsizedR t (pStringEnc s)
/-- `write_tagged_data`, /repo/src/vpx/biff.rs:743-747 -/
def wData (t : Tag) (d : Bytes) : WOp := .sized t d
/-- `write_tagged_data_without_size`, /repo/src/vpx/biff.rs:749-753 -/
def wDataNoSize (t : Tag) (d : Bytes) : WOp := .unsized t d
/-- `write_marker_tag` / `write_tagged_empty`, /repo/src/vpx/biff.rs:780-783, 659-662 -/
def wMarker (t : Tag) : WOp := .sized t []
/-- `write_tagged` / `write_tagged_without_size` of a value whose `biff_write` itself writes
tagged records and closes with ENDB: the first inner `new_tag` ends the outer record with
size 4, the inner `close(true)` leaves no open tag, so the final `end_tag*` does nothing.
/repo/src/vpx/biff.rs:755-765 -/
def wNested (t : Tag) (ops : List WOp) : List WOp := .sized t [] :: (ops ++ [.sized ENDB []])

/-- `if let Some(v) = &self.field { writer.write_tagged_x("TAG", v); }` (used in /repo/src/vpx/gameitem/select.rs:116-130) -/
def opt {α : Type} (f : α → WOp) : Option α → List WOp
  | none => []
  | some a => [f a]

end Vpin
