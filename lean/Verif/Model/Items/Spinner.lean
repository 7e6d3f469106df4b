import Verif.Model.Common
import Verif.Model.Enums
/-
`Spinner`, /repo/src/vpx/gameitem/spinner.rs
Generated by tools/gen_items.py from the source; each definition cites what it models.
-/
namespace Vpin


/-- `struct Spinner`, /repo/src/vpx/gameitem/spinner.rs:10-136
The five shared fields are grouped in `shared` (see `SharedAttrs`). -/
structure Spinner where
  name : Str
  center : Vertex2D
  rotation : F32
  height : F32
  length : F32
  damping : F32
  angle_max : F32
  angle_min : F32
  elasticity : F32
  is_visible : Bool
  show_bracket : Bool
  material : Str
  image : Str
  surface : Str
  is_reflection_enabled : Option Bool
  timer : TimerData
  shared : SharedAttrs
  deriving DecidableEq, Repr

/-- `Spinner::default`, /repo/src/vpx/gameitem/spinner.rs:216-242 (floating point values as bit patterns) -/
def Spinner.default : Spinner where
  name := []
  center := Vertex2D.default
  rotation := 0
  height := 0x42700000
  length := 0x42a00000
  damping := 0x3f7ce704
  angle_max := 0
  angle_min := 0
  elasticity := 0x3e99999a
  is_visible := true
  show_bracket := true
  material := []
  image := []
  surface := []
  is_reflection_enabled := none
  timer := TimerData.default
  shared := SharedAttrs.default

/-- the value the reader starts from, /repo/src/vpx/gameitem/spinner.rs:263-335 -/
def Spinner.init : Spinner := Spinner.default

/-- the `timer` field, /repo/src/vpx/gameitem/spinner.rs:126 -/
def Spinner.timerL : Lens Spinner TimerData := ⟨fun s => s.timer, fun t s => { s with timer := t }⟩

/-- the shared fields, /repo/src/vpx/gameitem/spinner.rs:129 -/
def Spinner.sharedL : Lens Spinner SharedAttrs := ⟨fun s => s.shared, fun a s => { s with shared := a }⟩

/-- match arms of `Spinner::biff_read`, /repo/src/vpx/gameitem/spinner.rs:263-335 -/
def Spinner.arms : Handlers Spinner :=
  [(tag!"VCEN", fld getVertex2D fun v s => { s with center := v }),
   (tag!"ROTA", fld getF32 fun v s => { s with rotation := v }),
   (tag!"HIGH", fld getF32 fun v s => { s with height := v }),
   (tag!"LGTH", fld getF32 fun v s => { s with length := v }),
   (tag!"AFRC", fld getF32 fun v s => { s with damping := v }),
   (tag!"SMAX", fld getF32 fun v s => { s with angle_max := v }),
   (tag!"SMIN", fld getF32 fun v s => { s with angle_min := v }),
   (tag!"SELA", fld getF32 fun v s => { s with elasticity := v }),
   (tag!"SVIS", fld getBool fun v s => { s with is_visible := v }),
   (tag!"SSUP", fld getBool fun v s => { s with show_bracket := v }),
   (tag!"MATR", fld getString fun v s => { s with material := v }),
   (tag!"IMGF", fld getString fun v s => { s with image := v }),
   (tag!"SURF", fld getString fun v s => { s with surface := v }),
   (tag!"NAME", fld getWide fun v s => { s with name := v }),
   (tag!"REEN", fld getBool fun v s => { s with is_reflection_enabled := some v })] ++
  timerArms Spinner.timerL ++
  sharedArms Spinner.sharedL

/-- `Spinner::biff_read`, /repo/src/vpx/gameitem/spinner.rs:263-335 -/
def Spinner.read (data : Bytes) : Res Spinner := readStruct Spinner.arms Spinner.init data

/-- calls made by `Spinner::biff_write` before `close(true)`, /repo/src/vpx/gameitem/spinner.rs:337-362 -/
def Spinner.ops (s : Spinner) : List WOp := List.flatten [
  [wVertex2D tag!"VCEN" s.center],
  [wF32 tag!"ROTA" s.rotation],
  s.timer.ops,
  [wF32 tag!"HIGH" s.height],
  [wF32 tag!"LGTH" s.length],
  [wF32 tag!"AFRC" s.damping],
  [wF32 tag!"SMAX" s.angle_max],
  [wF32 tag!"SMIN" s.angle_min],
  [wF32 tag!"SELA" s.elasticity],
  [wBool tag!"SVIS" s.is_visible],
  [wBool tag!"SSUP" s.show_bracket],
  [wString tag!"MATR" s.material],
  [wString tag!"IMGF" s.image],
  [wString tag!"SURF" s.surface],
  [wWide tag!"NAME" s.name],
  opt (wBool tag!"REEN") s.is_reflection_enabled,
  s.shared.ops]

/-- `Spinner::biff_write`, /repo/src/vpx/gameitem/spinner.rs:337-362 -/
def Spinner.write (s : Spinner) : Res Bytes := writeBiff s.ops

end Vpin
