import Verif.Model.BiffPen
import Verif.Spec.BiffApi
import Verif.Spec.Text
/-
What a history of calls of the record writer writes.
-/
namespace Vpin

/-- what has been written: finished bytes, and possibly a record that is still open -/
structure Paper where
  done : Bytes := []
  opened : Option (Bytes × Bytes) := none

/-- a record with this number in the place of its size -/
def frame (size : UInt32) (name payload : Bytes) : Bytes :=
  le32 size ++ (name ++ List.replicate (4 - name.length) 0) ++ payload

/-- the bytes written so far: the size of an open record is still 0 -/
def Paper.bytes (p : Paper) : Bytes :=
  match p.opened with
  | none => p.done
  | some (name, payload) => p.done ++ frame 0 name payload

/-- ends the open record with its size -/
def Paper.finish (p : Paper) : Res Paper :=
  match p.opened with
  | none => .ok p
  | some (name, payload) =>
    if 4 + payload.length < 2 ^ 32 then .ok { done := p.done ++ recordBytes name payload }
    else .error .panic

/-- ends the open record with size 4 -/
def Paper.finishShort (p : Paper) : Paper :=
  match p.opened with
  | none => p
  | some (name, payload) => { done := p.done ++ frame 4 name payload }

/-- ends the open record and opens another one; a name of more than four bytes is refused, and an
empty name leaves eight zero bytes and no record -/
def Paper.start (p : Paper) (name : Bytes) : Res Paper :=
  match p.finish with
  | .error e => .error e
  | .ok p =>
    if 4 < name.length then .error .panic
    else if name = [] then .ok { done := p.done ++ frame 0 [] [] }
    else .ok { done := p.done, opened := some (name, []) }

/-- writes bytes, in the open record if there is one -/
def Paper.write (p : Paper) (d : Bytes) : Paper :=
  match p.opened with
  | none => { done := p.done ++ d }
  | some (name, payload) => { done := p.done, opened := some (name, payload ++ d) }

/-- the effect of a call -/
def Write.effect (p : Paper) : Write → Res Paper
  | .newTag t => p.start t
  | .put v =>
    match v.bytes with
    | .error e => .error e
    | .ok d => .ok (p.write d)
  | .endTag => p.finish
  | .endTagNoSize => .ok p.finishShort
  | .close true =>
    match p.start endbName with
    | .error e => .error e
    | .ok p => p.finish
  | .close false => p.finish

/-- the effect of a history of calls -/
def effects (p : Paper) : List Write → Res Paper
  | [] => .ok p
  | c :: cs =>
    match c.effect p with
    | .error e => .error e
    | .ok p => effects p cs

/-! ## Values that are read back -/

/-- the value can be written and read back -/
def WVal.Fits : WVal → Prop
  | .short s => IsLatin1 s ∧ NulFree s ∧ s.length < 256
  | .string s | .emptyZero s => Text s
  | .encoded s => ∃ d, s.toBytes = .ok d ∧ d.length < 2 ^ 32
  | .wide s => WText s
  | .lenData d => d.length < 2 ^ 32
  | .data d => d.length < 2 ^ 64
  | _ => True

/-- the calls that read the value back -/
def WVal.calls : WVal → List Read
  | .u8 _ | .i8 _ => [.one .u8]
  | .u16 _ => [.one .u16]
  | .i16 _ => [.one .i16]
  | .u32 _ => [.one .u32]
  | .i32 _ => [.one .i32]
  | .f32 _ => [.one .f32]
  | .bool _ => [.one .bool]
  | .short s => [.one .u8, .str s.length]
  | .string _ | .emptyZero _ => [.one .string]
  | .encoded s =>
    match s.toBytes with
    | .error _ => []
    | .ok d => [.one .u32, .bytes d.length]
  | .wide _ => [.one .wide]
  | .lenData d => [.one .u32, .bytes d.length]
  | .data d => [.bytes d.length]

/-- what these calls return -/
def WVal.returned : WVal → List Out
  | .u8 v => [.one (.u8 v)]
  | .i8 v => [.one (.u8 v.toUInt8)]
  | .u16 v => [.one (.u16 v)]
  | .i16 v => [.one (.i16 v)]
  | .u32 v => [.one (.u32 v)]
  | .i32 v => [.one (.i32 v)]
  | .f32 v => [.one (.f32 v)]
  | .bool v => [.one (.bool v)]
  | .short s => [.one (.u8 (UInt8.ofNat s.length)), .one (.text s)]
  | .string s | .emptyZero s | .wide s => [.one (.text s)]
  | .encoded s =>
    match s.toBytes with
    | .error _ => []
    | .ok d => [.one (.u32 (UInt32.ofNat d.length)), .bytes d]
  | .lenData d => [.one (.u32 (UInt32.ofNat d.length)), .bytes d]
  | .data d => [.bytes d]

/-- the bytes of values, one after the other -/
def bytesOfAll : List WVal → Res Bytes
  | [] => .ok []
  | v :: vs =>
    match v.bytes, bytesOfAll vs with
    | .ok d, .ok ds => .ok (d ++ ds)
    | .error e, _ => .error e
    | .ok _, .error e => .error e

/-- the calls that write records of these values -/
def writeRecords (rs : List (Bytes × List WVal)) : List Write :=
  rs.flatMap (fun r => .newTag r.1 :: (r.2.map .put ++ [.endTag])) ++ [.close true]

end Vpin
