import Verif.Model.BiffApi
/-
The record writer of `vpx::biff` as a public interface: its untagged methods and the opening and
closing of records, in any order.
-/
namespace Vpin

/-- `BiffWriter`, /repo/src/vpx/biff.rs:510-515; the tag by its bytes -/
structure Pen where
  data : Bytes := []
  start : Nat := 0
  tag : Bytes := []
  size : Nat := 0
  deriving DecidableEq, Repr

/-- what an untagged method writes, /repo/src/vpx/biff.rs:569-657 -/
inductive WVal where
  | u8 (v : UInt8)
  | i8 (v : Int8)
  | u16 (v : UInt16)
  | i16 (v : Int16)
  | u32 (v : UInt32)
  | i32 (v : Int32)
  | f32 (v : F32)
  | bool (v : Bool)
  | short (s : Str)
  | string (s : Str)
  | encoded (s : StringWithEncoding)
  | emptyZero (s : Str)
  | wide (s : Str)
  | lenData (d : Bytes)
  | data (d : Bytes)
  deriving DecidableEq, Repr

/-- the bytes it writes: `write_u8`, `write_8`, `write_u16`, `write_16`, `write_u32`, `write_32`,
`write_f32`, `write_bool`, `write_short_string`, `write_string`, `write_string_with_encoding`,
`write_string_empty_zero`, `write_wide_string`, `write_length_prefixed_data`, `write_data`,
/repo/src/vpx/biff.rs:569-657 -/
def WVal.bytes : WVal → Res Bytes
  | .u8 v => .ok [v]
  | .i8 v => .ok [v.toUInt8]
  | .u16 v => .ok (le16 v)
  | .i16 v => .ok (le16 v.toUInt16)
  | .u32 v => .ok (le32 v)
  | .i32 v => .ok (le32 v.toUInt32)
  | .f32 v => .ok (le32 v)
  | .bool v => .ok (pBool v)
  | .short s => pShortString s
  | .string s => pString s
  | .encoded s => pStringEnc s
  | .emptyZero s => pStringEmptyZero s
  | .wide s => pWide s
  | .lenData d => pLenData d
  | .data d => .ok d

namespace Pen

/-- the untagged methods: append the bytes and count them, /repo/src/vpx/biff.rs:569-657 -/
def put (w : Pen) (v : WVal) : Res Pen :=
  match v.bytes with
  | .error e => .error e
  | .ok d => .ok { w with data := w.data ++ d, size := w.size + d.length }

/-- `end_tag`, /repo/src/vpx/biff.rs:537-545 -/
def endTag (w : Pen) : Res Pen :=
  if w.tag = [] then .ok w
  else if w.size < 2 ^ 32 then
    .ok { w with data := patch w.data w.start (le32 (UInt32.ofNat w.size)), tag := [] }
  else .error .panic

/-- `end_tag_no_size`, /repo/src/vpx/biff.rs:547-554 -/
def endTagNoSize (w : Pen) : Pen :=
  if w.tag = [] then w else { w with data := patch w.data w.start (le32 4), tag := [] }

/-- `new_tag`, /repo/src/vpx/biff.rs:556-567: a tag of more than four bytes does not fit
(`padded_tag_bytes[..tag_bytes.len()]` panics) -/
def newTag (w : Pen) (tag : Bytes) : Res Pen :=
  match w.endTag with
  | .error e => .error e
  | .ok w =>
    if 4 < tag.length then .error .panic
    else .ok { data := w.data ++ [0, 0, 0, 0] ++ (tag ++ List.replicate (4 - tag.length) 0),
               start := w.data.length, tag := tag, size := 4 }

/-- `close`, /repo/src/vpx/biff.rs:773-778 -/
def close (w : Pen) (endb : Bool) : Res Pen :=
  if endb then
    match w.newTag [0x45, 0x4e, 0x44, 0x42] with
    | .error e => .error e
    | .ok w => w.endTag
  else w.endTag

end Pen

/-- a call of a method of the writer; the `write_tagged_*` methods are sequences of these,
/repo/src/vpx/biff.rs:659-771 -/
inductive Write where
  | newTag (tag : Bytes)
  | put (v : WVal)
  | endTag
  | endTagNoSize
  | close (endb : Bool)
  deriving DecidableEq, Repr

/-- the call, /repo/src/vpx/biff.rs:537-771 -/
def Write.run (w : Pen) : Write → Res Pen
  | .newTag t => w.newTag t
  | .put v => w.put v
  | .endTag => w.endTag
  | .endTagNoSize => .ok w.endTagNoSize
  | .close e => w.close e

/-- a history of calls, /repo/src/vpx/biff.rs:528-795 -/
def runWrites (w : Pen) : List Write → Res Pen
  | [] => .ok w
  | c :: cs =>
    match c.run w with
    | .error e => .error e
    | .ok w => runWrites w cs

end Vpin
