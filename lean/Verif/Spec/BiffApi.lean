import Verif.Model.BiffApi
import Verif.Spec.Records
/-
What the methods of the record reader mean, in terms of the bytes of the record.
-/
namespace Vpin

/-- the bytes of the current record that have not been read -/
def unread (c : Cursor) : Bytes := (c.data.drop c.pos).take c.left

/-- the record lies inside the data -/
def Cursor.Inside (c : Cursor) : Prop := c.pos + c.left ≤ c.data.length ∧ c.data.length < 2 ^ 63

/-- the reader `k` bytes further into the record -/
def Cursor.move (c : Cursor) (k : Nat) : Cursor := { c with pos := c.pos + k, left := c.left - k }

/-- the first `n` bytes and those after them -/
def cutAt (n : Nat) (d : Bytes) : Option (Bytes × Bytes) :=
  if n ≤ d.length then some (d.take n, d.drop n) else none

/-- a value of `n` bytes -/
def fixedSize {α : Type} (n : Nat) (value : Bytes → α) (d : Bytes) : Option (α × Bytes) :=
  match cutAt n d with
  | none => none
  | some (x, rest) => some (value x, rest)

/-- the text before the first zero byte, in Latin-1 -/
def zeroEnded (d : Bytes) : Str := decodeLatin1 (d.takeWhile (· ≠ 0))

/-- a value with its length in bytes before it -/
def prefixed {α : Type} (value : Bytes → Option α) (d : Bytes) : Option (α × Bytes) :=
  match cutAt 4 d with
  | none => none
  | some (n, d) =>
    match cutAt (leNat n) d with
    | none => none
    | some (x, rest) =>
      match value x with
      | none => none
      | some v => some (v, rest)

/-- the value at the front of these bytes, and the bytes after it -/
def Elem.parse : Elem → Bytes → Option (Scalar × Bytes)
  | .bool => fixedSize 4 fun x => .bool (x != [0, 0, 0, 0])
  | .u8 => fixedSize 1 fun x => .u8 (UInt8.ofNat (leNat x))
  | .u16 => fixedSize 2 fun x => .u16 (UInt16.ofNat (leNat x))
  | .u32 => fixedSize 4 fun x => .u32 (UInt32.ofNat (leNat x))
  | .u64 => fixedSize 8 fun x => .u64 (UInt64.ofNat (leNat x))
  | .i16 => fixedSize 2 fun x => .i16 (UInt16.ofNat (leNat x)).toInt16
  | .i32 => fixedSize 4 fun x => .i32 (UInt32.ofNat (leNat x)).toInt32
  | .i64 => fixedSize 8 fun x => .i64 (UInt64.ofNat (leNat x)).toInt64
  | .f32 => fixedSize 4 fun x => .f32 (UInt32.ofNat (leNat x))
  | .f64 => fixedSize 8 fun x => .f64 (UInt64.ofNat (leNat x))
  | .string => prefixed fun x => some (.text (zeroEnded x))
  | .wide => prefixed fun x =>
      match decodeUtf16le x with
      | .error _ => none
      | .ok s => some (.text s)

/-- one value after the other -/
def parseMany (e : Elem) : Nat → Bytes → Option (List Scalar × Bytes)
  | 0, d => some ([], d)
  | n + 1, d =>
    match e.parse d with
    | none => none
    | some (v, d) =>
      match parseMany e n d with
      | none => none
      | some (vs, rest) => some (v :: vs, rest)

/-- what a call returns if these are the unread bytes of the record, and those left afterwards -/
def Read.parse : Read → Bytes → Option (Out × Bytes)
  | .one e, d => (e.parse d).map fun (v, rest) => (.one v, rest)
  | .many e n, d => (parseMany e n d).map fun (vs, rest) => (.many vs, rest)
  | .bytes n, d => (cutAt n d).map fun (x, rest) => (.bytes x, rest)
  | .str n, d => (cutAt n d).map fun (x, rest) => (.one (.text (zeroEnded x)), rest)
  | .skip n, d => (cutAt n d).map fun (_, rest) => (.skipped, rest)
  | .skipTag, _ => some (.skipped, [])

/-- what a history of calls returns -/
def parseReads : List Read → Bytes → Option (List Out × Bytes)
  | [], d => some ([], d)
  | r :: rs, d =>
    match r.parse d with
    | none => none
    | some (o, d) =>
      match parseReads rs d with
      | none => none
      | some (os, rest) => some (o :: os, rest)

end Vpin
