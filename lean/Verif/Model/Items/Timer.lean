import Verif.Model.Common
import Verif.Model.Enums
/-
`Timer`, /repo/src/vpx/gameitem/timer.rs
Generated by tools/gen_items.py from the source; each definition cites what it models.
-/
namespace Vpin


/-- `struct Timer`, /repo/src/vpx/gameitem/timer.rs:10-27
The five shared fields are grouped in `shared` (see `SharedAttrs`). -/
structure Timer where
  center : Vertex2D
  name : Str
  backglass : Bool
  timer : TimerData
  shared : SharedAttrs
  deriving DecidableEq, Repr

/-- `Timer::default`, /repo/src/vpx/gameitem/timer.rs:89-103 (floating point values as bit patterns) -/
def Timer.default : Timer where
  center := Vertex2D.default
  name := "Timer".toList
  backglass := false
  timer := TimerData.default
  shared := SharedAttrs.default

/-- the value the reader starts from, /repo/src/vpx/gameitem/timer.rs:105-141 -/
def Timer.init : Timer := Timer.default

/-- the `timer` field, /repo/src/vpx/gameitem/timer.rs:17 -/
def Timer.timerL : Lens Timer TimerData := ⟨fun s => s.timer, fun t s => { s with timer := t }⟩

/-- the shared fields, /repo/src/vpx/gameitem/timer.rs:20 -/
def Timer.sharedL : Lens Timer SharedAttrs := ⟨fun s => s.shared, fun a s => { s with shared := a }⟩

/-- match arms of `Timer::biff_read`, /repo/src/vpx/gameitem/timer.rs:105-141 -/
def Timer.arms : Handlers Timer :=
  [(tag!"VCEN", fld getVertex2D fun v s => { s with center := v }),
   (tag!"NAME", fld getWide fun v s => { s with name := v }),
   (tag!"BGLS", fld getBool fun v s => { s with backglass := v })] ++
  timerArms Timer.timerL ++
  sharedArms Timer.sharedL

/-- `Timer::biff_read`, /repo/src/vpx/gameitem/timer.rs:105-141 -/
def Timer.read (data : Bytes) : Res Timer := readStruct Timer.arms Timer.init data

/-- calls made by `Timer::biff_write` before `close(true)`, /repo/src/vpx/gameitem/timer.rs:143-154 -/
def Timer.ops (s : Timer) : List WOp := List.flatten [
  [wVertex2D tag!"VCEN" s.center],
  s.timer.ops,
  [wWide tag!"NAME" s.name],
  [wBool tag!"BGLS" s.backglass],
  s.shared.ops]

/-- `Timer::biff_write`, /repo/src/vpx/gameitem/timer.rs:143-154 -/
def Timer.write (s : Timer) : Res Bytes := writeBiff s.ops

end Vpin
