import Verif.Model.Common
import Verif.Model.Enums
/-
`TextBox`, /repo/src/vpx/gameitem/textbox.rs
Generated by tools/gen_items.py from the source; each definition cites what it models.
-/
namespace Vpin


/-- `struct TextBox`, /repo/src/vpx/gameitem/textbox.rs:110-137
The five shared fields are grouped in `shared` (see `SharedAttrs`). -/
structure TextBox where
  ver1 : Vertex2D
  ver2 : Vertex2D
  back_color : Color
  font_color : Color
  intensity_scale : F32
  text : Str
  name : Str
  align : TextAlignment
  is_transparent : Bool
  is_dmd : Option Bool
  font : Font
  timer : TimerData
  shared : SharedAttrs
  deriving DecidableEq, Repr

/-- `TextBox::default`, /repo/src/vpx/gameitem/textbox.rs:224-246 (floating point values as bit patterns) -/
def TextBox.default : TextBox where
  ver1 := Vertex2D.default
  ver2 := Vertex2D.default
  back_color := Color.rgb 0 0 0
  font_color := Color.rgb 255 255 255
  intensity_scale := 0x3f800000
  text := []
  name := []
  align := .Left
  is_transparent := false
  is_dmd := none
  font := Font.default
  timer := TimerData.default
  shared := SharedAttrs.default

/-- the value the reader starts from, /repo/src/vpx/gameitem/textbox.rs:248-310 -/
def TextBox.init : TextBox := TextBox.default

/-- the `timer` field, /repo/src/vpx/gameitem/textbox.rs:125 -/
def TextBox.timerL : Lens TextBox TimerData := ⟨fun s => s.timer, fun t s => { s with timer := t }⟩

/-- the shared fields, /repo/src/vpx/gameitem/textbox.rs:128 -/
def TextBox.sharedL : Lens TextBox SharedAttrs := ⟨fun s => s.shared, fun a s => { s with shared := a }⟩

/-- match arms of `TextBox::biff_read`, /repo/src/vpx/gameitem/textbox.rs:248-310 -/
def TextBox.arms : Handlers TextBox :=
  [(tag!"VER1", fld getVertex2D fun v s => { s with ver1 := v }),
   (tag!"VER2", fld getVertex2D fun v s => { s with ver2 := v }),
   (tag!"CLRB", fld getColor fun v s => { s with back_color := v }),
   (tag!"CLRF", fld getColor fun v s => { s with font_color := v }),
   (tag!"INSC", fld getF32 fun v s => { s with intensity_scale := v }),
   (tag!"TEXT", fld getString fun v s => { s with text := v }),
   (tag!"NAME", fld getWide fun v s => { s with name := v }),
   (tag!"ALGN", fld (getEnum TextAlignment.ofU32) fun v s => { s with align := v }),
   (tag!"TRNS", fld getBool fun v s => { s with is_transparent := v }),
   (tag!"IDMD", fld getBool fun v s => { s with is_dmd := some v }),
   (tag!"FONT", fld getFont fun v s => { s with font := v })] ++
  timerArms TextBox.timerL ++
  sharedArms TextBox.sharedL

/-- `TextBox::biff_read`, /repo/src/vpx/gameitem/textbox.rs:248-310 -/
def TextBox.read (data : Bytes) : Res TextBox := readStruct TextBox.arms TextBox.init data

/-- calls made by `TextBox::biff_write` before `close(true)`, /repo/src/vpx/gameitem/textbox.rs:312-334 -/
def TextBox.ops (s : TextBox) : List WOp := List.flatten [
  [wVertex2D tag!"VER1" s.ver1],
  [wVertex2D tag!"VER2" s.ver2],
  [wColor tag!"CLRB" s.back_color],
  [wColor tag!"CLRF" s.font_color],
  [wF32 tag!"INSC" s.intensity_scale],
  [wString tag!"TEXT" s.text],
  s.timer.ops,
  [wWide tag!"NAME" s.name],
  [wEnum TextAlignment.toU32 tag!"ALGN" s.align],
  [wBool tag!"TRNS" s.is_transparent],
  opt (wBool tag!"IDMD") s.is_dmd,
  s.shared.ops,
  [wFont tag!"FONT" s.font]]

/-- `TextBox::biff_write`, /repo/src/vpx/gameitem/textbox.rs:312-334 -/
def TextBox.write (s : TextBox) : Res Bytes := writeBiff s.ops

end Vpin
