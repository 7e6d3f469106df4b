import Verif.Model.Common
import Verif.Model.Enums
/-
`Plunger`, /repo/src/vpx/gameitem/plunger.rs
Generated by tools/gen_items.py from the source; each definition cites what it models.
-/
namespace Vpin


/-- `struct Plunger`, /repo/src/vpx/gameitem/plunger.rs:113-167
The five shared fields are grouped in `shared` (see `SharedAttrs`). -/
structure Plunger where
  center : Vertex2D
  width : F32
  height : F32
  z_adjust : F32
  stroke : F32
  speed_pull : F32
  speed_fire : F32
  plunger_type : PlungerType
  anim_frames : UInt32
  material : Str
  image : Str
  mech_strength : F32
  is_mech_plunger : Bool
  auto_plunger : Bool
  park_position : F32
  scatter_velocity : F32
  momentum_xfer : F32
  is_visible : Bool
  is_reflection_enabled : Option Bool
  surface : Str
  name : Str
  tip_shape : Str
  rod_diam : F32
  ring_gap : F32
  ring_diam : F32
  ring_width : F32
  spring_diam : F32
  spring_gauge : F32
  spring_loops : F32
  spring_end_loops : F32
  timer : TimerData
  shared : SharedAttrs
  deriving DecidableEq, Repr

/-- `Plunger::default`, /repo/src/vpx/gameitem/plunger.rs:170-212 (floating point values as bit patterns) -/
def Plunger.default : Plunger where
  center := Vertex2D.default
  width := 0x41c80000
  height := 0x41a00000
  z_adjust := 0
  stroke := 0x42a00000
  speed_pull := 0x3f000000
  speed_fire := 0x42a00000
  plunger_type := .Modern
  anim_frames := 1
  material := []
  image := []
  mech_strength := 0x42aa0000
  is_mech_plunger := false
  auto_plunger := false
  park_position := 0x3e2aaaab
  scatter_velocity := 0
  momentum_xfer := 0x3f800000
  is_visible := true
  is_reflection_enabled := some true
  surface := []
  name := []
  tip_shape := "0 .34; 2 .6; 3 .64; 5 .7; 7 .84; 8 .88; 9 .9; 11 .92; 14 .92; 39 .84".toList
  rod_diam := 0x3f19999a
  ring_gap := 0x40000000
  ring_diam := 0x3f70a3d7
  ring_width := 0x40400000
  spring_diam := 0x3f451eb8
  spring_gauge := 0x3fb0a3d7
  spring_loops := 0x41000000
  spring_end_loops := 0x40200000
  timer := TimerData.default
  shared := SharedAttrs.default

/-- the value the reader starts from, /repo/src/vpx/gameitem/plunger.rs:355-477 -/
def Plunger.init : Plunger := { Plunger.default with is_reflection_enabled := none }

/-- the `timer` field, /repo/src/vpx/gameitem/plunger.rs:157 -/
def Plunger.timerL : Lens Plunger TimerData := ⟨fun s => s.timer, fun t s => { s with timer := t }⟩

/-- the shared fields, /repo/src/vpx/gameitem/plunger.rs:160 -/
def Plunger.sharedL : Lens Plunger SharedAttrs := ⟨fun s => s.shared, fun a s => { s with shared := a }⟩

/-- match arms of `Plunger::biff_read`, /repo/src/vpx/gameitem/plunger.rs:355-477 -/
def Plunger.arms : Handlers Plunger :=
  [(tag!"VCEN", fld getVertex2D fun v s => { s with center := v }),
   (tag!"WDTH", fld getF32 fun v s => { s with width := v }),
   (tag!"HIGH", fld getF32 fun v s => { s with height := v }),
   (tag!"ZADJ", fld getF32 fun v s => { s with z_adjust := v }),
   (tag!"HPSL", fld getF32 fun v s => { s with stroke := v }),
   (tag!"SPDP", fld getF32 fun v s => { s with speed_pull := v }),
   (tag!"SPDF", fld getF32 fun v s => { s with speed_fire := v }),
   (tag!"TYPE", fld (getEnum PlungerType.ofU32) fun v s => { s with plunger_type := v }),
   (tag!"ANFR", fld getU32 fun v s => { s with anim_frames := v }),
   (tag!"MATR", fld getString fun v s => { s with material := v }),
   (tag!"IMAG", fld getString fun v s => { s with image := v }),
   (tag!"MEST", fld getF32 fun v s => { s with mech_strength := v }),
   (tag!"MECH", fld getBool fun v s => { s with is_mech_plunger := v }),
   (tag!"APLG", fld getBool fun v s => { s with auto_plunger := v }),
   (tag!"MPRK", fld getF32 fun v s => { s with park_position := v }),
   (tag!"PSCV", fld getF32 fun v s => { s with scatter_velocity := v }),
   (tag!"MOMX", fld getF32 fun v s => { s with momentum_xfer := v }),
   (tag!"VSBL", fld getBool fun v s => { s with is_visible := v }),
   (tag!"REEN", fld getBool fun v s => { s with is_reflection_enabled := some v }),
   (tag!"SURF", fld getString fun v s => { s with surface := v }),
   (tag!"NAME", fld getWide fun v s => { s with name := v }),
   (tag!"TIPS", fld getString fun v s => { s with tip_shape := v }),
   (tag!"RODD", fld getF32 fun v s => { s with rod_diam := v }),
   (tag!"RNGG", fld getF32 fun v s => { s with ring_gap := v }),
   (tag!"RNGD", fld getF32 fun v s => { s with ring_diam := v }),
   (tag!"RNGW", fld getF32 fun v s => { s with ring_width := v }),
   (tag!"SPRD", fld getF32 fun v s => { s with spring_diam := v }),
   (tag!"SPRG", fld getF32 fun v s => { s with spring_gauge := v }),
   (tag!"SPRL", fld getF32 fun v s => { s with spring_loops := v }),
   (tag!"SPRE", fld getF32 fun v s => { s with spring_end_loops := v })] ++
  timerArms Plunger.timerL ++
  sharedArms Plunger.sharedL

/-- `Plunger::biff_read`, /repo/src/vpx/gameitem/plunger.rs:355-477 -/
def Plunger.read (data : Bytes) : Res Plunger := readStruct Plunger.arms Plunger.init data

/-- calls made by `Plunger::biff_write` before `close(true)`, /repo/src/vpx/gameitem/plunger.rs:479-519 -/
def Plunger.ops (s : Plunger) : List WOp := List.flatten [
  [wVertex2D tag!"VCEN" s.center],
  [wF32 tag!"WDTH" s.width],
  [wF32 tag!"HIGH" s.height],
  [wF32 tag!"ZADJ" s.z_adjust],
  [wF32 tag!"HPSL" s.stroke],
  [wF32 tag!"SPDP" s.speed_pull],
  [wF32 tag!"SPDF" s.speed_fire],
  [wEnum PlungerType.toU32 tag!"TYPE" s.plunger_type],
  [wU32 tag!"ANFR" s.anim_frames],
  [wString tag!"MATR" s.material],
  [wString tag!"IMAG" s.image],
  [wF32 tag!"MEST" s.mech_strength],
  [wBool tag!"MECH" s.is_mech_plunger],
  [wBool tag!"APLG" s.auto_plunger],
  [wF32 tag!"MPRK" s.park_position],
  [wF32 tag!"PSCV" s.scatter_velocity],
  [wF32 tag!"MOMX" s.momentum_xfer],
  s.timer.ops,
  [wBool tag!"VSBL" s.is_visible],
  opt (wBool tag!"REEN") s.is_reflection_enabled,
  [wString tag!"SURF" s.surface],
  [wWide tag!"NAME" s.name],
  [wString tag!"TIPS" s.tip_shape],
  [wF32 tag!"RODD" s.rod_diam],
  [wF32 tag!"RNGG" s.ring_gap],
  [wF32 tag!"RNGD" s.ring_diam],
  [wF32 tag!"RNGW" s.ring_width],
  [wF32 tag!"SPRD" s.spring_diam],
  [wF32 tag!"SPRG" s.spring_gauge],
  [wF32 tag!"SPRL" s.spring_loops],
  [wF32 tag!"SPRE" s.spring_end_loops],
  s.shared.ops]

/-- `Plunger::biff_write`, /repo/src/vpx/gameitem/plunger.rs:479-519 -/
def Plunger.write (s : Plunger) : Res Bytes := writeBiff s.ops

end Vpin
