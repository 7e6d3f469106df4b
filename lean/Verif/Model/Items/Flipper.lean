import Verif.Model.Common
import Verif.Model.Enums
/-
`Flipper`, /repo/src/vpx/gameitem/flipper.rs
Generated by tools/gen_items.py from the source; each definition cites what it models.
-/
namespace Vpin


/-- `struct Flipper`, /repo/src/vpx/gameitem/flipper.rs:10-331
The five shared fields are grouped in `shared` (see `SharedAttrs`). -/
structure Flipper where
  name : Str
  center : Vertex2D
  base_radius : F32
  end_radius : F32
  flipper_radius_max : F32
  return_ : F32
  start_angle : F32
  end_angle : F32
  override_physics : UInt32
  mass : F32
  surface : Str
  material : Str
  rubber_material : Str
  rubber_thickness_int : UInt32
  rubber_thickness : Option F32
  rubber_height_int : UInt32
  rubber_height : Option F32
  rubber_width_int : UInt32
  rubber_width : Option F32
  strength : F32
  elasticity : F32
  elasticity_falloff : F32
  friction : F32
  ramp_up : F32
  scatter : Option F32
  torque_damping : Option F32
  torque_damping_angle : Option F32
  flipper_radius_min : F32
  is_visible : Bool
  is_enabled : Bool
  height : F32
  image : Option Str
  is_reflection_enabled : Option Bool
  timer : TimerData
  shared : SharedAttrs
  deriving DecidableEq, Repr

/-- `Flipper::default`, /repo/src/vpx/gameitem/flipper.rs:491-535 (floating point values as bit patterns) -/
def Flipper.default : Flipper where
  name := []
  center := Vertex2D.default
  base_radius := 0x41ac0000
  end_radius := 0x41500000
  flipper_radius_max := 0x43020000
  return_ := 0x3d6d9168
  start_angle := 0x42f20000
  end_angle := 0x428c0000
  override_physics := 0
  mass := 0x3f800000
  surface := []
  material := []
  rubber_material := []
  rubber_thickness_int := 0
  rubber_thickness := none
  rubber_height_int := 0
  rubber_height := none
  rubber_width_int := 0
  rubber_width := none
  strength := 0x45098000
  elasticity := 0x3f4ccccd
  elasticity_falloff := 0x3edc28f6
  friction := 0x3f19999a
  ramp_up := 0x40400000
  scatter := none
  torque_damping := none
  torque_damping_angle := none
  flipper_radius_min := 0
  is_visible := true
  is_enabled := true
  height := 0x42480000
  image := none
  is_reflection_enabled := none
  timer := TimerData.default
  shared := SharedAttrs.default

/-- the value the reader starts from, /repo/src/vpx/gameitem/flipper.rs:537-664 -/
def Flipper.init : Flipper := Flipper.default

/-- the `timer` field, /repo/src/vpx/gameitem/flipper.rs:321 -/
def Flipper.timerL : Lens Flipper TimerData := ⟨fun s => s.timer, fun t s => { s with timer := t }⟩

/-- the shared fields, /repo/src/vpx/gameitem/flipper.rs:324 -/
def Flipper.sharedL : Lens Flipper SharedAttrs := ⟨fun s => s.shared, fun a s => { s with shared := a }⟩

/-- match arms of `Flipper::biff_read`, /repo/src/vpx/gameitem/flipper.rs:537-664 -/
def Flipper.arms : Handlers Flipper :=
  [(tag!"VCEN", fld getVertex2D fun v s => { s with center := v }),
   (tag!"BASR", fld getF32 fun v s => { s with base_radius := v }),
   (tag!"ENDR", fld getF32 fun v s => { s with end_radius := v }),
   (tag!"FLPR", fld getF32 fun v s => { s with flipper_radius_max := v }),
   (tag!"FRTN", fld getF32 fun v s => { s with return_ := v }),
   (tag!"ANGS", fld getF32 fun v s => { s with start_angle := v }),
   (tag!"ANGE", fld getF32 fun v s => { s with end_angle := v }),
   (tag!"OVRP", fld getU32 fun v s => { s with override_physics := v }),
   (tag!"FORC", fld getF32 fun v s => { s with mass := v }),
   (tag!"SURF", fld getString fun v s => { s with surface := v }),
   (tag!"MATR", fld getString fun v s => { s with material := v }),
   (tag!"NAME", fld getWide fun v s => { s with name := v }),
   (tag!"RUMA", fld getString fun v s => { s with rubber_material := v }),
   (tag!"RTHK", fld getU32 fun v s => { s with rubber_thickness_int := v }),
   (tag!"RTHF", fld getF32 fun v s => { s with rubber_thickness := some v }),
   (tag!"RHGT", fld getU32 fun v s => { s with rubber_height_int := v }),
   (tag!"RHGF", fld getF32 fun v s => { s with rubber_height := some v }),
   (tag!"RWDT", fld getU32 fun v s => { s with rubber_width_int := v }),
   (tag!"RWDF", fld getF32 fun v s => { s with rubber_width := some v }),
   (tag!"STRG", fld getF32 fun v s => { s with strength := v }),
   (tag!"ELAS", fld getF32 fun v s => { s with elasticity := v }),
   (tag!"ELFO", fld getF32 fun v s => { s with elasticity_falloff := v }),
   (tag!"FRIC", fld getF32 fun v s => { s with friction := v }),
   (tag!"RPUP", fld getF32 fun v s => { s with ramp_up := v }),
   (tag!"SCTR", fld getF32 fun v s => { s with scatter := some v }),
   (tag!"TODA", fld getF32 fun v s => { s with torque_damping := some v }),
   (tag!"TDAA", fld getF32 fun v s => { s with torque_damping_angle := some v }),
   (tag!"VSBL", fld getBool fun v s => { s with is_visible := v }),
   (tag!"ENBL", fld getBool fun v s => { s with is_enabled := v }),
   (tag!"FRMN", fld getF32 fun v s => { s with flipper_radius_min := v }),
   (tag!"FHGT", fld getF32 fun v s => { s with height := v }),
   (tag!"IMAG", fld getString fun v s => { s with image := some v }),
   (tag!"REEN", fld getBool fun v s => { s with is_reflection_enabled := some v })] ++
  timerArms Flipper.timerL ++
  sharedArms Flipper.sharedL

/-- `Flipper::biff_read`, /repo/src/vpx/gameitem/flipper.rs:537-664 -/
def Flipper.read (data : Bytes) : Res Flipper := readStruct Flipper.arms Flipper.init data

/-- calls made by `Flipper::biff_write` before `close(true)`, /repo/src/vpx/gameitem/flipper.rs:666-723 -/
def Flipper.ops (s : Flipper) : List WOp := List.flatten [
  [wVertex2D tag!"VCEN" s.center],
  [wF32 tag!"BASR" s.base_radius],
  [wF32 tag!"ENDR" s.end_radius],
  [wF32 tag!"FLPR" s.flipper_radius_max],
  [wF32 tag!"FRTN" s.return_],
  [wF32 tag!"ANGS" s.start_angle],
  [wF32 tag!"ANGE" s.end_angle],
  [wU32 tag!"OVRP" s.override_physics],
  [wF32 tag!"FORC" s.mass],
  s.timer.ops,
  [wString tag!"SURF" s.surface],
  [wString tag!"MATR" s.material],
  [wWide tag!"NAME" s.name],
  [wString tag!"RUMA" s.rubber_material],
  [wU32 tag!"RTHK" s.rubber_thickness_int],
  opt (wF32 tag!"RTHF") s.rubber_thickness,
  [wU32 tag!"RHGT" s.rubber_height_int],
  opt (wF32 tag!"RHGF") s.rubber_height,
  [wU32 tag!"RWDT" s.rubber_width_int],
  opt (wF32 tag!"RWDF") s.rubber_width,
  [wF32 tag!"STRG" s.strength],
  [wF32 tag!"ELAS" s.elasticity],
  [wF32 tag!"ELFO" s.elasticity_falloff],
  [wF32 tag!"FRIC" s.friction],
  [wF32 tag!"RPUP" s.ramp_up],
  opt (wF32 tag!"SCTR") s.scatter,
  opt (wF32 tag!"TODA") s.torque_damping,
  opt (wF32 tag!"TDAA") s.torque_damping_angle,
  [wBool tag!"VSBL" s.is_visible],
  [wBool tag!"ENBL" s.is_enabled],
  [wF32 tag!"FRMN" s.flipper_radius_min],
  [wF32 tag!"FHGT" s.height],
  opt (wString tag!"IMAG") s.image,
  opt (wBool tag!"REEN") s.is_reflection_enabled,
  s.shared.ops]

/-- `Flipper::biff_write`, /repo/src/vpx/gameitem/flipper.rs:666-723 -/
def Flipper.write (s : Flipper) : Res Bytes := writeBiff s.ops

end Vpin
