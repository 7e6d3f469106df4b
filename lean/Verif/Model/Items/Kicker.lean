import Verif.Model.Common
import Verif.Model.Enums
/-
`Kicker`, /repo/src/vpx/gameitem/kicker.rs
Generated by tools/gen_items.py from the source; each definition cites what it models.
-/
namespace Vpin


/-- `struct Kicker`, /repo/src/vpx/gameitem/kicker.rs:137-168
The five shared fields are grouped in `shared` (see `SharedAttrs`). -/
structure Kicker where
  center : Vertex2D
  radius : F32
  material : Str
  surface : Str
  is_enabled : Bool
  name : Str
  kicker_type : KickerType
  scatter : F32
  hit_accuracy : F32
  hit_height : Option F32
  orientation : F32
  fall_through : Bool
  legacy_mode : Bool
  timer : TimerData
  shared : SharedAttrs
  deriving DecidableEq, Repr

/-- `Kicker::default`, /repo/src/vpx/gameitem/kicker.rs:261-285 (floating point values as bit patterns) -/
def Kicker.default : Kicker where
  center := Vertex2D.default
  radius := 0x41c80000
  material := []
  surface := []
  is_enabled := true
  name := []
  kicker_type := .Hole
  scatter := 0
  hit_accuracy := 0x3f333333
  hit_height := none
  orientation := 0
  fall_through := false
  legacy_mode := true
  timer := TimerData.default
  shared := SharedAttrs.default

/-- the value the reader starts from, /repo/src/vpx/gameitem/kicker.rs:287-354 -/
def Kicker.init : Kicker := Kicker.default

/-- the `timer` field, /repo/src/vpx/gameitem/kicker.rs:158 -/
def Kicker.timerL : Lens Kicker TimerData := ⟨fun s => s.timer, fun t s => { s with timer := t }⟩

/-- the shared fields, /repo/src/vpx/gameitem/kicker.rs:161 -/
def Kicker.sharedL : Lens Kicker SharedAttrs := ⟨fun s => s.shared, fun a s => { s with shared := a }⟩

/-- match arms of `Kicker::biff_read`, /repo/src/vpx/gameitem/kicker.rs:287-354 -/
def Kicker.arms : Handlers Kicker :=
  [(tag!"VCEN", fld getVertex2D fun v s => { s with center := v }),
   (tag!"RADI", fld getF32 fun v s => { s with radius := v }),
   (tag!"MATR", fld getString fun v s => { s with material := v }),
   (tag!"SURF", fld getString fun v s => { s with surface := v }),
   (tag!"EBLD", fld getBool fun v s => { s with is_enabled := v }),
   (tag!"NAME", fld getWide fun v s => { s with name := v }),
   (tag!"TYPE", fld (getEnum KickerType.ofU32) fun v s => { s with kicker_type := v }),
   (tag!"KSCT", fld getF32 fun v s => { s with scatter := v }),
   (tag!"KHAC", fld getF32 fun v s => { s with hit_accuracy := v }),
   (tag!"KHHI", fld getF32 fun v s => { s with hit_height := some v }),
   (tag!"KORI", fld getF32 fun v s => { s with orientation := v }),
   (tag!"FATH", fld getBool fun v s => { s with fall_through := v }),
   (tag!"LEMO", fld getBool fun v s => { s with legacy_mode := v })] ++
  timerArms Kicker.timerL ++
  sharedArms Kicker.sharedL

/-- `Kicker::biff_read`, /repo/src/vpx/gameitem/kicker.rs:287-354 -/
def Kicker.read (data : Bytes) : Res Kicker := readStruct Kicker.arms Kicker.init data

/-- calls made by `Kicker::biff_write` before `close(true)`, /repo/src/vpx/gameitem/kicker.rs:356-379 -/
def Kicker.ops (s : Kicker) : List WOp := List.flatten [
  [wVertex2D tag!"VCEN" s.center],
  [wF32 tag!"RADI" s.radius],
  s.timer.ops,
  [wString tag!"MATR" s.material],
  [wString tag!"SURF" s.surface],
  [wBool tag!"EBLD" s.is_enabled],
  [wWide tag!"NAME" s.name],
  [wEnum KickerType.toU32 tag!"TYPE" s.kicker_type],
  [wF32 tag!"KSCT" s.scatter],
  [wF32 tag!"KHAC" s.hit_accuracy],
  opt (wF32 tag!"KHHI") s.hit_height,
  [wF32 tag!"KORI" s.orientation],
  [wBool tag!"FATH" s.fall_through],
  [wBool tag!"LEMO" s.legacy_mode],
  s.shared.ops]

/-- `Kicker::biff_write`, /repo/src/vpx/gameitem/kicker.rs:356-379 -/
def Kicker.write (s : Kicker) : Res Bytes := writeBiff s.ops

end Vpin
