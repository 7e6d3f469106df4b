import Verif.Model.Common
/-
/repo/src/vpx/font.rs: fonts embedded in a table file.
-/
namespace Vpin

/-- `FontData`, /repo/src/vpx/font.rs:9-13 -/
structure FontData where
  name : Str
  path : Str
  data : Bytes
  deriving DecidableEq, Repr

/-- the local variables of `read`, /repo/src/vpx/font.rs:58-62 -/
structure FontState where
  font : FontData
  size : Option UInt32
  deriving DecidableEq, Repr

/-- the state before the first record, /repo/src/vpx/font.rs:58-97 -/
def FontState.init : FontState := ⟨⟨[], [], []⟩, none⟩

/-- match arms of `read`, /repo/src/vpx/font.rs:63-94; DATA before SIZE is a panic -/
def FontData.arms : Handlers FontState :=
  [(tag!"NAME", fld getString fun v s => { s with font := { s.font with name := v } }),
   (tag!"PATH", fld getString fun v s => { s with font := { s.font with path := v } }),
   (tag!"SIZE", fld getU32 fun v s => { s with size := some v }),
   (tag!"DATA", fun s =>
      fld (match s.size with
        | some n => getData n.toNat
        | none => R.ofRes (.error .panic)) (fun v s => { s with font := { s.font with data := v } }) s)]

/-- `font::read`, /repo/src/vpx/font.rs:57-96 -/
def FontData.read (data : Bytes) : Res FontData :=
  match readStruct FontData.arms FontState.init data with
  | .ok s => .ok s.font
  | .error e => .error e

/-- calls made by `font::write` before `close(true)`, /repo/src/vpx/font.rs:98-106;
`len().try_into().unwrap()` panics from 2^32 on -/
def FontData.ops (s : FontData) : List WOp := List.flatten [
  [wString tag!"NAME" s.name],
  [wString tag!"PATH" s.path],
  [if s.data.length < 2 ^ 32 then wU32 tag!"SIZE" (UInt32.ofNat s.data.length) else .fail],
  [wData tag!"DATA" s.data]]

/-- `font::write`, /repo/src/vpx/font.rs:98-106 -/
def FontData.write (s : FontData) : Res Bytes := writeBiff s.ops

end Vpin
