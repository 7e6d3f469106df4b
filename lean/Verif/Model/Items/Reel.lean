import Verif.Model.Common
import Verif.Model.Enums
/-
`Reel`, /repo/src/vpx/gameitem/reel.rs
Generated by tools/gen_items.py from the source; each definition cites what it models.
-/
namespace Vpin


/-- `struct Reel`, /repo/src/vpx/gameitem/reel.rs:13-45
The five shared fields are grouped in `shared` (see `SharedAttrs`). -/
structure Reel where
  ver1 : Vertex2D
  ver2 : Vertex2D
  back_color : Color
  is_transparent : Bool
  image : Str
  sound : Str
  name : Str
  width : F32
  height : F32
  reel_count : F32
  reel_spacing : F32
  motor_steps : F32
  digit_range : F32
  update_interval : UInt32
  use_image_grid : Bool
  is_visible : Bool
  images_per_grid_row : UInt32
  timer : TimerData
  shared : SharedAttrs
  deriving DecidableEq, Repr

/-- `Reel::default`, /repo/src/vpx/gameitem/reel.rs:130-158 (floating point values as bit patterns) -/
def Reel.default : Reel where
  ver1 := Vertex2D.default
  ver2 := Vertex2D.default
  back_color := Color.rgb 64 64 64
  is_transparent := false
  image := []
  sound := []
  name := []
  width := 0x41f00000
  height := 0x42200000
  reel_count := 0x40a00000
  reel_spacing := 0x40800000
  motor_steps := 0x40000000
  digit_range := 0x41100000
  update_interval := 50
  use_image_grid := false
  is_visible := true
  images_per_grid_row := 1
  timer := TimerData.default
  shared := SharedAttrs.default

/-- the value the reader starts from, /repo/src/vpx/gameitem/reel.rs:179-258 -/
def Reel.init : Reel := Reel.default

/-- the `timer` field, /repo/src/vpx/gameitem/reel.rs:35 -/
def Reel.timerL : Lens Reel TimerData := ⟨fun s => s.timer, fun t s => { s with timer := t }⟩

/-- the shared fields, /repo/src/vpx/gameitem/reel.rs:38 -/
def Reel.sharedL : Lens Reel SharedAttrs := ⟨fun s => s.shared, fun a s => { s with shared := a }⟩

/-- match arms of `Reel::biff_read`, /repo/src/vpx/gameitem/reel.rs:179-258 -/
def Reel.arms : Handlers Reel :=
  [(tag!"VER1", fld getVertex2D fun v s => { s with ver1 := v }),
   (tag!"VER2", fld getVertex2D fun v s => { s with ver2 := v }),
   (tag!"CLRB", fld getColor fun v s => { s with back_color := v }),
   (tag!"TRNS", fld getBool fun v s => { s with is_transparent := v }),
   (tag!"IMAG", fld getString fun v s => { s with image := v }),
   (tag!"SOUN", fld getString fun v s => { s with sound := v }),
   (tag!"NAME", fld getWide fun v s => { s with name := v }),
   (tag!"WDTH", fld getF32 fun v s => { s with width := v }),
   (tag!"HIGH", fld getF32 fun v s => { s with height := v }),
   (tag!"RCNT", fld getF32 fun v s => { s with reel_count := v }),
   (tag!"RSPC", fld getF32 fun v s => { s with reel_spacing := v }),
   (tag!"MSTP", fld getF32 fun v s => { s with motor_steps := v }),
   (tag!"RANG", fld getF32 fun v s => { s with digit_range := v }),
   (tag!"UPTM", fld getU32 fun v s => { s with update_interval := v }),
   (tag!"UGRD", fld getBool fun v s => { s with use_image_grid := v }),
   (tag!"VISI", fld getBool fun v s => { s with is_visible := v }),
   (tag!"GIPR", fld getU32 fun v s => { s with images_per_grid_row := v })] ++
  timerArms Reel.timerL ++
  sharedArms Reel.sharedL

/-- `Reel::biff_read`, /repo/src/vpx/gameitem/reel.rs:179-258 -/
def Reel.read (data : Bytes) : Res Reel := readStruct Reel.arms Reel.init data

/-- calls made by `Reel::biff_write` before `close(true)`, /repo/src/vpx/gameitem/reel.rs:260-285 -/
def Reel.ops (s : Reel) : List WOp := List.flatten [
  [wVertex2D tag!"VER1" s.ver1],
  [wVertex2D tag!"VER2" s.ver2],
  [wColor tag!"CLRB" s.back_color],
  s.timer.ops,
  [wBool tag!"TRNS" s.is_transparent],
  [wString tag!"IMAG" s.image],
  [wString tag!"SOUN" s.sound],
  [wWide tag!"NAME" s.name],
  [wF32 tag!"WDTH" s.width],
  [wF32 tag!"HIGH" s.height],
  [wF32 tag!"RCNT" s.reel_count],
  [wF32 tag!"RSPC" s.reel_spacing],
  [wF32 tag!"MSTP" s.motor_steps],
  [wF32 tag!"RANG" s.digit_range],
  [wU32 tag!"UPTM" s.update_interval],
  [wBool tag!"UGRD" s.use_image_grid],
  [wBool tag!"VISI" s.is_visible],
  [wU32 tag!"GIPR" s.images_per_grid_row],
  s.shared.ops]

/-- `Reel::biff_write`, /repo/src/vpx/gameitem/reel.rs:260-285 -/
def Reel.write (s : Reel) : Res Bytes := writeBiff s.ops

end Vpin
