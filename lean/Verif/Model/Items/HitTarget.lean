import Verif.Model.Common
import Verif.Model.Enums
/-
`HitTarget`, /repo/src/vpx/gameitem/hittarget.rs
Generated by tools/gen_items.py from the source; each definition cites what it models.
-/
namespace Vpin


/-- `struct HitTarget`, /repo/src/vpx/gameitem/hittarget.rs:153-230
The five shared fields are grouped in `shared` (see `SharedAttrs`). -/
structure HitTarget where
  name : Str
  position : Vertex3D
  size : Vertex3D
  rot_z : F32
  image : Str
  target_type : TargetType
  material : Str
  is_visible : Bool
  is_legacy : Bool
  use_hit_event : Bool
  threshold : F32
  elasticity : F32
  elasticity_falloff : F32
  friction : F32
  scatter : F32
  is_collidable : Bool
  disable_lighting_top_old : Option F32
  disable_lighting_top : Option F32
  disable_lighting_below : Option F32
  depth_bias : F32
  is_reflection_enabled : Bool
  is_dropped : Bool
  drop_speed : F32
  raise_delay : Option UInt32
  physics_material : Option Str
  overwrite_physics : Option Bool
  timer : TimerData
  shared : SharedAttrs
  deriving DecidableEq, Repr

/-- `HitTarget::default`, /repo/src/vpx/gameitem/hittarget.rs:233-304 (floating point values as bit patterns) -/
def HitTarget.default : HitTarget where
  name := []
  position := Vertex3D.default
  size := ⟨0x42000000, 0x42000000, 0x42000000⟩
  rot_z := 0
  image := []
  target_type := .DropTargetSimple
  material := []
  is_visible := true
  is_legacy := false
  use_hit_event := true
  threshold := 0x40000000
  elasticity := 0
  elasticity_falloff := 0
  friction := 0
  scatter := 0
  is_collidable := true
  disable_lighting_top_old := none
  disable_lighting_top := none
  disable_lighting_below := none
  depth_bias := 0
  is_reflection_enabled := true
  is_dropped := false
  drop_speed := 0x3f000000
  raise_delay := none
  physics_material := none
  overwrite_physics := none
  timer := TimerData.default
  shared := SharedAttrs.default

/-- the value the reader starts from, /repo/src/vpx/gameitem/hittarget.rs:435-537 -/
def HitTarget.init : HitTarget := HitTarget.default

/-- the `timer` field, /repo/src/vpx/gameitem/hittarget.rs:220 -/
def HitTarget.timerL : Lens HitTarget TimerData := ⟨fun s => s.timer, fun t s => { s with timer := t }⟩

/-- the shared fields, /repo/src/vpx/gameitem/hittarget.rs:223 -/
def HitTarget.sharedL : Lens HitTarget SharedAttrs := ⟨fun s => s.shared, fun a s => { s with shared := a }⟩

/-- match arms of `HitTarget::biff_read`, /repo/src/vpx/gameitem/hittarget.rs:435-537 -/
def HitTarget.arms : Handlers HitTarget :=
  [(tag!"VPOS", fld getVertex3D fun v s => { s with position := v }),
   (tag!"VSIZ", fld getVertex3D fun v s => { s with size := v }),
   (tag!"ROTZ", fld getF32 fun v s => { s with rot_z := v }),
   (tag!"IMAG", fld getString fun v s => { s with image := v }),
   (tag!"TRTY", fld (getEnum TargetType.ofU32) fun v s => { s with target_type := v }),
   (tag!"NAME", fld getWide fun v s => { s with name := v }),
   (tag!"MATR", fld getString fun v s => { s with material := v }),
   (tag!"TVIS", fld getBool fun v s => { s with is_visible := v }),
   (tag!"LEMO", fld getBool fun v s => { s with is_legacy := v }),
   (tag!"HTEV", fld getBool fun v s => { s with use_hit_event := v }),
   (tag!"THRS", fld getF32 fun v s => { s with threshold := v }),
   (tag!"ELAS", fld getF32 fun v s => { s with elasticity := v }),
   (tag!"ELFO", fld getF32 fun v s => { s with elasticity_falloff := v }),
   (tag!"RFCT", fld getF32 fun v s => { s with friction := v }),
   (tag!"RSCT", fld getF32 fun v s => { s with scatter := v }),
   (tag!"CLDR", fld getBool fun v s => { s with is_collidable := v }),
   (tag!"DILI", fld getQuant8 fun v s => { s with disable_lighting_top_old := some v }),
   (tag!"DILT", fld getF32 fun v s => { s with disable_lighting_top := some v }),
   (tag!"DILB", fld getF32 fun v s => { s with disable_lighting_below := some v }),
   (tag!"REEN", fld getBool fun v s => { s with is_reflection_enabled := v }),
   (tag!"PIDB", fld getF32 fun v s => { s with depth_bias := v }),
   (tag!"ISDR", fld getBool fun v s => { s with is_dropped := v }),
   (tag!"DRSP", fld getF32 fun v s => { s with drop_speed := v }),
   (tag!"RADE", fld getU32 fun v s => { s with raise_delay := some v }),
   (tag!"MAPH", fld getString fun v s => { s with physics_material := some v }),
   (tag!"OVPH", fld getBool fun v s => { s with overwrite_physics := some v })] ++
  timerArms HitTarget.timerL ++
  sharedArms HitTarget.sharedL

/-- `HitTarget::biff_read`, /repo/src/vpx/gameitem/hittarget.rs:435-537 -/
def HitTarget.read (data : Bytes) : Res HitTarget := readStruct HitTarget.arms HitTarget.init data

/-- calls made by `HitTarget::biff_write` before `close(true)`, /repo/src/vpx/gameitem/hittarget.rs:539-584 -/
def HitTarget.ops (s : HitTarget) : List WOp := List.flatten [
  [wVertex3D tag!"VPOS" s.position],
  [wVertex3D tag!"VSIZ" s.size],
  [wF32 tag!"ROTZ" s.rot_z],
  [wString tag!"IMAG" s.image],
  [wEnum TargetType.toU32 tag!"TRTY" s.target_type],
  [wWide tag!"NAME" s.name],
  [wString tag!"MATR" s.material],
  [wBool tag!"TVIS" s.is_visible],
  [wBool tag!"LEMO" s.is_legacy],
  [wBool tag!"HTEV" s.use_hit_event],
  [wF32 tag!"THRS" s.threshold],
  [wF32 tag!"ELAS" s.elasticity],
  [wF32 tag!"ELFO" s.elasticity_falloff],
  [wF32 tag!"RFCT" s.friction],
  [wF32 tag!"RSCT" s.scatter],
  [wBool tag!"CLDR" s.is_collidable],
  opt (wQuant8 tag!"DILI") s.disable_lighting_top_old,
  opt (wF32 tag!"DILT") s.disable_lighting_top,
  opt (wF32 tag!"DILB") s.disable_lighting_below,
  [wBool tag!"REEN" s.is_reflection_enabled],
  [wF32 tag!"PIDB" s.depth_bias],
  [wBool tag!"ISDR" s.is_dropped],
  [wF32 tag!"DRSP" s.drop_speed],
  s.timer.ops,
  opt (wU32 tag!"RADE") s.raise_delay,
  opt (wString tag!"MAPH") s.physics_material,
  opt (wBool tag!"OVPH") s.overwrite_physics,
  s.shared.ops]

/-- `HitTarget::biff_write`, /repo/src/vpx/gameitem/hittarget.rs:539-584 -/
def HitTarget.write (s : HitTarget) : Res Bytes := writeBiff s.ops

end Vpin
