import Verif.Model.Common
import Verif.Model.Enums
/-
`Ball`, /repo/src/vpx/gameitem/ball.rs
Generated by tools/gen_items.py from the source; each definition cites what it models.
-/
namespace Vpin


/-- `struct Ball`, /repo/src/vpx/gameitem/ball.rs:47-166
The five shared fields are grouped in `shared` (see `SharedAttrs`). -/
structure Ball where
  name : Str
  pos : Vertex3D
  radius : F32
  mass : F32
  force_reflection : Bool
  decal_mode : Bool
  image : Str
  image_decal : Str
  bulb_intensity_scale : F32
  playfield_reflection_strength : F32
  color : Color
  spherical_mapping : Bool
  is_reflection_enabled : Bool
  timer : TimerData
  shared : SharedAttrs
  deriving DecidableEq, Repr

/-- `Ball::default`, /repo/src/vpx/gameitem/ball.rs:212-236 (floating point values as bit patterns) -/
def Ball.default : Ball where
  name := []
  pos := ⟨0, 0, 0x41c80000⟩
  radius := 0x41c80000
  mass := 0x3f800000
  force_reflection := false
  decal_mode := false
  image := []
  image_decal := []
  bulb_intensity_scale := 0x3f800000
  playfield_reflection_strength := 0x3f800000
  color := Color.rgb 255 255 255
  spherical_mapping := false
  is_reflection_enabled := true
  timer := TimerData.default
  shared := SharedAttrs.default

/-- the value the reader starts from, /repo/src/vpx/gameitem/ball.rs:283-350 -/
def Ball.init : Ball := Ball.default

/-- the `timer` field, /repo/src/vpx/gameitem/ball.rs:158 -/
def Ball.timerL : Lens Ball TimerData := ⟨fun s => s.timer, fun t s => { s with timer := t }⟩

/-- the shared fields, /repo/src/vpx/gameitem/ball.rs:161 -/
def Ball.sharedL : Lens Ball SharedAttrs := ⟨fun s => s.shared, fun a s => { s with shared := a }⟩

/-- match arms of `Ball::biff_read`, /repo/src/vpx/gameitem/ball.rs:283-350 -/
def Ball.arms : Handlers Ball :=
  [(tag!"VCEN", fld getVertex3DUnpadded fun v s => { s with pos := v }),
   (tag!"RADI", fld getF32 fun v s => { s with radius := v }),
   (tag!"MASS", fld getF32 fun v s => { s with mass := v }),
   (tag!"FREF", fld getBool fun v s => { s with force_reflection := v }),
   (tag!"DCMD", fld getBool fun v s => { s with decal_mode := v }),
   (tag!"IMAG", fld getString fun v s => { s with image := v }),
   (tag!"DIMG", fld getString fun v s => { s with image_decal := v }),
   (tag!"BISC", fld getF32 fun v s => { s with bulb_intensity_scale := v }),
   (tag!"PFRF", fld getF32 fun v s => { s with playfield_reflection_strength := v }),
   (tag!"COLR", fld getColor fun v s => { s with color := v }),
   (tag!"SPHR", fld getBool fun v s => { s with spherical_mapping := v }),
   (tag!"REEN", fld getBool fun v s => { s with is_reflection_enabled := v }),
   (tag!"NAME", fld getWide fun v s => { s with name := v })] ++
  timerArms Ball.timerL ++
  sharedArms Ball.sharedL

/-- `Ball::biff_read`, /repo/src/vpx/gameitem/ball.rs:283-350 -/
def Ball.read (data : Bytes) : Res Ball := readStruct Ball.arms Ball.init data

/-- calls made by `Ball::biff_write` before `close(true)`, /repo/src/vpx/gameitem/ball.rs:352-373 -/
def Ball.ops (s : Ball) : List WOp := List.flatten [
  [wVertex3DUnpadded tag!"VCEN" s.pos],
  [wF32 tag!"RADI" s.radius],
  [wF32 tag!"MASS" s.mass],
  [wBool tag!"FREF" s.force_reflection],
  [wBool tag!"DCMD" s.decal_mode],
  [wString tag!"IMAG" s.image],
  [wString tag!"DIMG" s.image_decal],
  [wF32 tag!"BISC" s.bulb_intensity_scale],
  [wF32 tag!"PFRF" s.playfield_reflection_strength],
  [wColor tag!"COLR" s.color],
  [wBool tag!"SPHR" s.spherical_mapping],
  [wBool tag!"REEN" s.is_reflection_enabled],
  s.timer.ops,
  [wWide tag!"NAME" s.name],
  s.shared.ops]

/-- `Ball::biff_write`, /repo/src/vpx/gameitem/ball.rs:352-373 -/
def Ball.write (s : Ball) : Res Bytes := writeBiff s.ops

end Vpin
