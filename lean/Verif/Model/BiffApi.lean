import Verif.Model.Biff
/-
The record reader of `vpx::biff` as a public interface: the reader with its data and its position,
in builds that check integer overflow and in builds that do not, and every method it offers.

`Model/Biff.lean` models the same reader by the bytes still to be read; `Props/BiffView.lean` proves
that the two agree.

Sizes and positions are `usize` of 64 bits. A panic ends the history of calls.
-/
namespace Vpin

/-- Whether integer overflow is checked: `debug` builds panic, `release` builds wrap around.
(The profile of the program that uses the crate; /repo/Cargo.toml sets no `overflow-checks`.) (used in
/repo/src/vpx/biff.rs:476-485) -/
inductive Build where
  | debug
  | release
  deriving DecidableEq, Repr

/-- `x + y` on `usize` (used in /repo/src/vpx/biff.rs:87-91) -/
def Build.add (b : Build) (x y : Nat) : Res Nat :=
  if x + y < 2 ^ 64 then .ok (x + y)
  else match b with
    | .debug => .error .panic
    | .release => .ok ((x + y) % 2 ^ 64)

/-- `x - y` on `usize` (used in /repo/src/vpx/biff.rs:476-485) -/
def Build.sub (b : Build) (x y : Nat) : Res Nat :=
  if y ≤ x then .ok (x - y)
  else match b with
    | .debug => .error .panic
    | .release => .ok (x + 2 ^ 64 - y)

/-- `BiffReader`, /repo/src/vpx/biff.rs:22-29; `left` is `bytes_in_record_remaining`, `warn` is
`warn_remaining`; `record_start` is never read and left out. -/
structure Cursor where
  data : Bytes
  pos : Nat := 0
  left : Nat := 0
  tag : Str := []
  warn : Bool := true
  deriving DecidableEq, Repr

/-- a method `fn(&mut self, ..) -> α` of the reader that may panic, /repo/src/vpx/biff.rs:38-508 -/
abbrev P (α : Type) := StateT Cursor (Except Err) α

namespace Cursor

/-- `BiffReader::new`, /repo/src/vpx/biff.rs:39-49 -/
def new (data : Bytes) : Cursor := { data := data }

/-- `BiffReader::with_remaining`, /repo/src/vpx/biff.rs:51-61 -/
def withRemaining (data : Bytes) (n : Nat) : Cursor := { data := data, left := n }

/-- `disable_warn_remaining`, /repo/src/vpx/biff.rs:66-68 -/
def quiet : P Unit := fun c => .ok ((), { c with warn := false })

/-- `is_eof`, /repo/src/vpx/biff.rs:78-80 -/
def isEof (c : Cursor) : Bool := decide (c.data.length ≤ c.pos) || c.tag == "ENDB".toList

/-- `&self.data[from..to]`: a panic unless `from <= to <= len` (used in /repo/src/vpx/biff.rs:87-91) -/
def slice (c : Cursor) (a e : Nat) : Res Bytes :=
  if a ≤ e ∧ e ≤ c.data.length then .ok ((c.data.drop a).take (e - a)) else .error .panic

variable (b : Build)

/-- `self.pos += n` (used in /repo/src/vpx/biff.rs:87-91) -/
def advance (n : Nat) : P Unit := fun c =>
  match b.add c.pos n with
  | .error e => .error e
  | .ok p => .ok ((), { c with pos := p })

/-- `self.bytes_in_record_remaining -= n`, /repo/src/vpx/biff.rs:476-485 -/
def count (n : Nat) : P Unit := fun c =>
  match b.sub c.left n with
  | .error e => .error e
  | .ok l => .ok ((), { c with left := l })

/-- `sub_remaining`, /repo/src/vpx/biff.rs:476-485: panics in every build -/
def subRemaining (n : Nat) : P Unit := fun c =>
  if c.left < n then .error .panic else .ok ((), { c with left := c.left - n })

/-- `&self.data[self.pos..self.pos + n]` (used in /repo/src/vpx/biff.rs:87-91) -/
def peek (n : Nat) : P Bytes := fun c =>
  match b.add c.pos n with
  | .error e => .error e
  | .ok e =>
    match c.slice c.pos e with
    | .error e => .error e
    | .ok d => .ok (d, c)

/-- the first `n` bytes of `&self.data[self.pos..]` in `le_u16(..).unwrap()` and the like (used in
/repo/src/vpx/biff.rs:130-134) -/
def front (n : Nat) : P Bytes := fun c =>
  match c.slice c.pos c.data.length with
  | .error e => .error e
  | .ok d => if d.length < n then .error .panic else .ok (d.take n, c)

/-- `get_no_remaining_update`, /repo/src/vpx/biff.rs:87-91 -/
def bytesN (n : Nat) : P Bytes := do
  let d ← peek b n
  advance b n
  pure d

/-- `get`, /repo/src/vpx/biff.rs:82-85 -/
def bytes (n : Nat) : P Bytes := do
  count b n
  bytesN b n

/-- `get_bool`, /repo/src/vpx/biff.rs:97-110 (the warning is left out) -/
def bool : P Bool := do
  let all ← peek b 4
  advance b 4
  count b 4
  pure (all != [0, 0, 0, 0])

/-- `self.data[self.pos]` with `self.pos += 1`: `get_u8_no_remaining_update`,
/repo/src/vpx/biff.rs:118-122 -/
def u8N : P UInt8 := do
  let c ← get
  match c.data[c.pos]? with
  | none => throw .panic
  | some v =>
    advance b 1
    pure v

/-- `get_u8`, /repo/src/vpx/biff.rs:112-116 -/
def u8 : P UInt8 := do
  let v ← u8N b
  count b 1
  pure v

/-- `get_u16_no_remaining_update`, /repo/src/vpx/biff.rs:130-134 -/
def u16N : P UInt16 := do
  let d ← front 2
  advance b 2
  pure (ofLe16 d)

/-- `get_u16`, /repo/src/vpx/biff.rs:124-128 -/
def u16 : P UInt16 := do
  let v ← u16N b
  count b 2
  pure v

/-- `get_u32_no_remaining_update`, /repo/src/vpx/biff.rs:142-146 -/
def u32N : P UInt32 := do
  let d ← front 4
  advance b 4
  pure (ofLe32 d)

/-- `get_u32`, /repo/src/vpx/biff.rs:136-140 -/
def u32 : P UInt32 := do
  let v ← u32N b
  count b 4
  pure v

/-- `get_32_no_remaining_update`, /repo/src/vpx/biff.rs:153-157 -/
def i32N : P Int32 := do
  let d ← front 4
  advance b 4
  pure (ofLe32 d).toInt32

/-- `get_32`, /repo/src/vpx/biff.rs:148-152, and `get_i32`, /repo/src/vpx/biff.rs:287-292 -/
def i32 : P Int32 := do
  let v ← i32N b
  count b 4
  pure v

/-- `get_f32` (bit pattern), /repo/src/vpx/biff.rs:159-170 (the warning about NaN is left out) -/
def f32 : P F32 := do
  let d ← peek b 4
  advance b 4
  count b 4
  pure (ofLe32 d)

/-- `get_double` (bit pattern), /repo/src/vpx/biff.rs:273-278 -/
def f64 : P F64 := do
  let d ← front 8
  advance b 8
  count b 8
  pure (ofLe64 d)

/-- `get_i16`, /repo/src/vpx/biff.rs:280-285 -/
def i16 : P Int16 := do
  let d ← front 2
  advance b 2
  count b 2
  pure (ofLe16 d).toInt16

/-- `get_i64`, /repo/src/vpx/biff.rs:294-299 -/
def i64 : P Int64 := do
  let d ← front 8
  advance b 8
  count b 8
  pure (ofLe64 d).toInt64

/-- `get_u64`, /repo/src/vpx/biff.rs:301-306 -/
def u64 : P UInt64 := do
  let d ← front 8
  advance b 8
  count b 8
  pure (ofLe64 d)

/-- The loop over `self.data[self.pos + p]` for `p < count` that stops at the first zero byte:
the length of the text, /repo/src/vpx/biff.rs:173-180, 206-213, 220-227. The bytes are those from
the position on; running off the end of the data is a panic. -/
def scan : Bytes → Nat → Res Nat
  | _, 0 => .ok 0
  | [], _ + 1 => .error .panic
  | x :: xs, n + 1 =>
    if x = 0 then .ok 0
    else match scan xs n with
      | .error e => .error e
      | .ok k => .ok (k + 1)

/-- the loop and the slice `&self.data[self.pos..self.pos + pos_0]` (used in /repo/src/vpx/biff.rs:172-186) -/
def textBytes (n : Nat) : P Bytes := do
  let c ← get
  match scan (c.data.drop c.pos) n with
  | .error e => throw e
  | .ok k => peek b k

/-- `get_str`, /repo/src/vpx/biff.rs:172-186 -/
def str (n : Nat) : P Str := do
  let d ← textBytes b n
  advance b n
  subRemaining n
  pure (decodeLatin1 d)

/-- `get_str_no_remaining_update`, /repo/src/vpx/biff.rs:219-233 -/
def strN (n : Nat) : P Str := do
  let d ← textBytes b n
  advance b n
  pure (decodeLatin1 d)

/-- `get_str_with_encoding_no_remaining_update`, /repo/src/vpx/biff.rs:188-217 -/
def strEncN (n : Nat) : P StringWithEncoding := do
  let d ← textBytes b n
  advance b n
  pure (StringWithEncoding.ofBytes d)

/-- `get_string`, /repo/src/vpx/biff.rs:235-238 -/
def string : P Str := do
  let n ← u32 b
  str b n.toNat

/-- `get_string_no_remaining_update`, /repo/src/vpx/biff.rs:240-243 -/
def stringN : P Str := do
  let n ← u32N b
  strN b n.toNat

/-- `get_wide_string`, /repo/src/vpx/biff.rs:245-252 -/
def wide : P Str := do
  let n ← u32 b
  let d ← peek b n.toNat
  match decodeUtf16le d with
  | .error _ => throw .panic
  | .ok s =>
    advance b n.toNat
    count b n.toNat
    pure s

/-- `get_x_array`, /repo/src/vpx/biff.rs:308-378: `count` calls of the method for one value.
(Reserving the memory, `Vec::with_capacity(count)`, is left out.) -/
def times {α : Type} (m : P α) : Nat → P (List α)
  | 0 => pure []
  | n + 1 => do
    let v ← m
    let vs ← times m n
    pure (v :: vs)

/-- `get_record_data`, /repo/src/vpx/biff.rs:380-392 -/
def recordData (withTag : Bool) : P Bytes := fun c =>
  match b.add c.pos c.left with
  | .error e => .error e
  | .ok e =>
    let d : Res Bytes :=
      if withTag then
        match b.sub c.pos 4 with
        | .error e => .error e
        | .ok a => c.slice a e
      else if c.data.length ≤ e then .error .panic
      else c.slice c.pos e
    match d with
    | .error e => .error e
    | .ok d => .ok (d, { c with pos := e, left := 0 })

/-- `self.bytes_in_record_remaining = 0` (used in /repo/src/vpx/biff.rs:424-429) -/
def done : P Unit := fun c => .ok ((), { c with left := 0 })

/-- `get_data_no_remaining_update`, /repo/src/vpx/biff.rs:394-401 -/
def dataN : P Bytes := do
  let n ← u32N b
  let d ← bytesN b n.toNat
  done
  pure d

/-- `get_data`, /repo/src/vpx/biff.rs:403-408 -/
def dataOf (n : Nat) : P Bytes := do
  let d ← bytesN b n
  done
  pure d

/-- `skip`, /repo/src/vpx/biff.rs:414-417 -/
def skip (n : Nat) : P Unit := do
  advance b n
  count b n

/-- `skip_end_tag`, /repo/src/vpx/biff.rs:419-422 -/
def skipEnd (n : Nat) : P Unit := do
  advance b n
  done

/-- `skip_tag`, /repo/src/vpx/biff.rs:424-429 -/
def skipTag : P Nat := do
  let c ← get
  advance b c.left
  done
  pure c.left

/-- the part of `next` after the unread bytes of the record have been skipped,
/repo/src/vpx/biff.rs:441-462 -/
def nextHere : P (Option Str) := do
  let c ← get
  if c.data.length ≤ c.pos then throw .panic
  let size ← u32N b
  modify fun c => { c with left := size.toNat }
  let tag ← str b 4
  if tag.isEmpty then throw .panic
  modify fun c => { c with tag := tag }
  let c ← get
  if c.warn && tag == "ENDB".toList && decide (c.pos < c.data.length) then throw .panic
  if c.isEof then pure none else pure (some tag)

/-- `next`, /repo/src/vpx/biff.rs:431-463 -/
def next : P (Option Str) := do
  let c ← get
  if 0 < c.left then skip b c.left
  nextHere b

/-- `child_reader`, /repo/src/vpx/biff.rs:465-474: `&self.data[self.pos..]` -/
def child (c : Cursor) : Res Cursor :=
  match c.slice c.pos c.data.length with
  | .error e => .error e
  | .ok d => .ok { data := d, warn := false }

/-- The loop of `data_until`, /repo/src/vpx/biff.rs:489-500, on the bytes from `pos` on: the place of
the first occurrence of `pat`; slicing past the end and not finding it are panics. -/
def search (pat : Bytes) : Bytes → Nat → Res Nat
  | [], _ => .error .panic
  | x :: xs, p =>
    if xs.length + 1 < pat.length then .error .panic
    else if (x :: xs).take pat.length = pat then .ok p
    else search pat xs (p + 1)

/-- `data_until`, /repo/src/vpx/biff.rs:487-507 -/
def dataUntil (pat : Bytes) : P Bytes := fun c =>
  match search pat (c.data.drop c.pos) c.pos with
  | .error e => .error e
  | .ok p =>
    match b.sub p 4 with
    | .error e => .error e
    | .ok p =>
      match c.slice c.pos p with
      | .error e => .error e
      | .ok d => .ok (d, { c with pos := p, left := 0 })

end Cursor

/-! ## Calls that count the bytes they read -/

/-- a value a method returns, /repo/src/vpx/biff.rs:97-306 -/
inductive Scalar where
  | bool (v : Bool)
  | u8 (v : UInt8)
  | u16 (v : UInt16)
  | u32 (v : UInt32)
  | u64 (v : UInt64)
  | i16 (v : Int16)
  | i32 (v : Int32)
  | i64 (v : Int64)
  | f32 (v : F32)
  | f64 (v : F64)
  | text (v : Str)
  deriving DecidableEq, Repr

/-- which value is asked for, /repo/src/vpx/biff.rs:97-306 -/
inductive Elem where
  | bool | u8 | u16 | u32 | u64 | i16 | i32 | i64 | f32 | f64 | string | wide
  deriving DecidableEq, Repr

/-- the method for one value, /repo/src/vpx/biff.rs:97-306 -/
def Elem.get (b : Build) : Elem → P Scalar
  | .bool => do return .bool (← Cursor.bool b)
  | .u8 => do return .u8 (← Cursor.u8 b)
  | .u16 => do return .u16 (← Cursor.u16 b)
  | .u32 => do return .u32 (← Cursor.u32 b)
  | .u64 => do return .u64 (← Cursor.u64 b)
  | .i16 => do return .i16 (← Cursor.i16 b)
  | .i32 => do return .i32 (← Cursor.i32 b)
  | .i64 => do return .i64 (← Cursor.i64 b)
  | .f32 => do return .f32 (← Cursor.f32 b)
  | .f64 => do return .f64 (← Cursor.f64 b)
  | .string => do return .text (← Cursor.string b)
  | .wide => do return .text (← Cursor.wide b)

/-- A call of a method that counts what it reads against the record: `get_bool`, `get_u8`, ..
(`one`), the methods for arrays (`many`; the crate has them for u32, u16, i16, i32, i64, u64, f32,
f64 and strings), `get`, `get_str`, `skip` and `skip_tag`. /repo/src/vpx/biff.rs:82-429. -/
inductive Read where
  | one (e : Elem)
  | many (e : Elem) (n : Nat)
  | bytes (n : Nat)
  | str (n : Nat)
  | skip (n : Nat)
  | skipTag
  deriving DecidableEq, Repr

/-- what a call returns, /repo/src/vpx/biff.rs:82-429 -/
inductive Out where
  | one (v : Scalar)
  | many (vs : List Scalar)
  | bytes (d : Bytes)
  | skipped
  deriving DecidableEq, Repr

/-- the call, /repo/src/vpx/biff.rs:82-429 -/
def Read.run (b : Build) : Read → P Out
  | .one e => do return .one (← e.get b)
  | .many e n => do return .many (← Cursor.times (e.get b) n)
  | .bytes n => do return .bytes (← Cursor.bytes b n)
  | .str n => do return .one (.text (← Cursor.str b n))
  | .skip n => do Cursor.skip b n; return .skipped
  | .skipTag => do let _ ← Cursor.skipTag b; return .skipped

/-- a history of calls, /repo/src/vpx/biff.rs:82-429 -/
def runReads (b : Build) : List Read → P (List Out)
  | [] => pure []
  | r :: rs => do
    let o ← r.run b
    let os ← runReads b rs
    pure (o :: os)

/-- the argument of the call is a `usize`, /repo/src/vpx/biff.rs:82-429 -/
def Read.Sized : Read → Prop
  | .bytes n | .str n | .skip n => n < 2 ^ 64
  | _ => True

/-- `loop { reader.next(..); .. }` with the calls made in each record, until the end or until no
calls are left: the tags `next` returned and the results of the calls (used in /repo/src/vpx/biff.rs:431-463) -/
def runRecords (b : Build) : List (List Read) → P (List (Option Str × List Out))
  | [] => pure []
  | rs :: more => do
    let t ← Cursor.next b
    let os ← runReads b rs
    let rest ← runRecords b more
    pure ((t, os) :: rest)

end Vpin
