import Verif.Model.Common
import Verif.Model.Enums
/-
`Gate`, /repo/src/vpx/gameitem/gate.rs
Generated by tools/gen_items.py from the source; each definition cites what it models.
-/
namespace Vpin


/-- `struct Gate`, /repo/src/vpx/gameitem/gate.rs:131-197
The five shared fields are grouped in `shared` (see `SharedAttrs`). -/
structure Gate where
  name : Str
  center : Vertex2D
  length : F32
  height : F32
  rotation : F32
  material : Str
  show_bracket : Bool
  is_collidable : Bool
  imgf : Option Str
  imgb : Option Str
  surface : Str
  elasticity : F32
  angle_max : F32
  angle_min : F32
  friction : F32
  damping : Option F32
  gravity_factor : Option F32
  is_visible : Bool
  two_way : Bool
  is_reflection_enabled : Option Bool
  gate_type : Option GateType
  timer : TimerData
  shared : SharedAttrs
  deriving DecidableEq, Repr

/-- `Gate::default`, /repo/src/vpx/gameitem/gate.rs:200-232 (floating point values as bit patterns) -/
def Gate.default : Gate where
  name := []
  center := Vertex2D.default
  length := 0x42c80000
  height := 0x42480000
  rotation := 0xc2b40000
  material := []
  show_bracket := true
  is_collidable := true
  imgf := none
  imgb := none
  surface := []
  elasticity := 0x3e99999a
  angle_max := 0x3fc90fdb
  angle_min := 0
  friction := 0x3ca3d70a
  damping := none
  gravity_factor := none
  is_visible := true
  two_way := false
  is_reflection_enabled := none
  gate_type := none
  timer := TimerData.default
  shared := SharedAttrs.default

/-- the value the reader starts from, /repo/src/vpx/gameitem/gate.rs:347-438 -/
def Gate.init : Gate := Gate.default

/-- the `timer` field, /repo/src/vpx/gameitem/gate.rs:187 -/
def Gate.timerL : Lens Gate TimerData := ⟨fun s => s.timer, fun t s => { s with timer := t }⟩

/-- the shared fields, /repo/src/vpx/gameitem/gate.rs:190 -/
def Gate.sharedL : Lens Gate SharedAttrs := ⟨fun s => s.shared, fun a s => { s with shared := a }⟩

/-- match arms of `Gate::biff_read`, /repo/src/vpx/gameitem/gate.rs:347-438 -/
def Gate.arms : Handlers Gate :=
  [(tag!"VCEN", fld getVertex2D fun v s => { s with center := v }),
   (tag!"LGTH", fld getF32 fun v s => { s with length := v }),
   (tag!"HGTH", fld getF32 fun v s => { s with height := v }),
   (tag!"ROTA", fld getF32 fun v s => { s with rotation := v }),
   (tag!"MATR", fld getString fun v s => { s with material := v }),
   (tag!"GSUP", fld getBool fun v s => { s with show_bracket := v }),
   (tag!"GCOL", fld getBool fun v s => { s with is_collidable := v }),
   (tag!"IMGF", fld getString fun v s => { s with imgf := some v }),
   (tag!"IMGB", fld getString fun v s => { s with imgb := some v }),
   (tag!"SURF", fld getString fun v s => { s with surface := v }),
   (tag!"ELAS", fld getF32 fun v s => { s with elasticity := v }),
   (tag!"GAMA", fld getF32 fun v s => { s with angle_max := v }),
   (tag!"GAMI", fld getF32 fun v s => { s with angle_min := v }),
   (tag!"GFRC", fld getF32 fun v s => { s with friction := v }),
   (tag!"AFRC", fld getF32 fun v s => { s with damping := some v }),
   (tag!"GGFC", fld getF32 fun v s => { s with gravity_factor := some v }),
   (tag!"GVSB", fld getBool fun v s => { s with is_visible := v }),
   (tag!"NAME", fld getWide fun v s => { s with name := v }),
   (tag!"TWWA", fld getBool fun v s => { s with two_way := v }),
   (tag!"REEN", fld getBool fun v s => { s with is_reflection_enabled := some v }),
   (tag!"GATY", fld (getEnum GateType.ofU32) fun v s => { s with gate_type := some v })] ++
  timerArms Gate.timerL ++
  sharedArms Gate.sharedL

/-- `Gate::biff_read`, /repo/src/vpx/gameitem/gate.rs:347-438 -/
def Gate.read (data : Bytes) : Res Gate := readStruct Gate.arms Gate.init data

/-- calls made by `Gate::biff_write` before `close(true)`, /repo/src/vpx/gameitem/gate.rs:440-482 -/
def Gate.ops (s : Gate) : List WOp := List.flatten [
  [wVertex2D tag!"VCEN" s.center],
  [wF32 tag!"LGTH" s.length],
  [wF32 tag!"HGTH" s.height],
  [wF32 tag!"ROTA" s.rotation],
  [wString tag!"MATR" s.material],
  s.timer.tmonOps,
  [wBool tag!"GSUP" s.show_bracket],
  [wBool tag!"GCOL" s.is_collidable],
  s.timer.tminOps,
  opt (wString tag!"IMGF") s.imgf,
  opt (wString tag!"IMGB") s.imgb,
  [wString tag!"SURF" s.surface],
  [wF32 tag!"ELAS" s.elasticity],
  [wF32 tag!"GAMA" s.angle_max],
  [wF32 tag!"GAMI" s.angle_min],
  [wF32 tag!"GFRC" s.friction],
  opt (wF32 tag!"AFRC") s.damping,
  opt (wF32 tag!"GGFC") s.gravity_factor,
  [wBool tag!"GVSB" s.is_visible],
  [wWide tag!"NAME" s.name],
  [wBool tag!"TWWA" s.two_way],
  opt (wBool tag!"REEN") s.is_reflection_enabled,
  opt (wEnum GateType.toU32 tag!"GATY") s.gate_type,
  s.shared.ops]

/-- `Gate::biff_write`, /repo/src/vpx/gameitem/gate.rs:440-482 -/
def Gate.write (s : Gate) : Res Bytes := writeBiff s.ops

end Vpin
