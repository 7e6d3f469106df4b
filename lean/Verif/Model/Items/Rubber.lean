import Verif.Model.Common
import Verif.Model.Enums
import Verif.Model.Items.DragPoint
/-
`Rubber`, /repo/src/vpx/gameitem/rubber.rs
Generated by tools/gen_items.py from the source; each definition cites what it models.
-/
namespace Vpin


/-- `struct Rubber`, /repo/src/vpx/gameitem/rubber.rs:10-54
The five shared fields are grouped in `shared` (see `SharedAttrs`). -/
structure Rubber where
  height : F32
  hit_height : Option F32
  thickness : Int32
  hit_event : Bool
  material : Str
  name : Str
  image : Str
  elasticity : F32
  elasticity_falloff : F32
  friction : F32
  scatter : F32
  is_collidable : Bool
  is_visible : Bool
  radb : Option F32
  static_rendering : Bool
  show_in_editor : Bool
  rot_x : F32
  rot_y : F32
  rot_z : F32
  is_reflection_enabled : Option Bool
  physics_material : Option Str
  overwrite_physics : Option Bool
  timer : TimerData
  shared : SharedAttrs
  drag_points : List DragPoint
  deriving DecidableEq, Repr

/-- `Rubber::default`, /repo/src/vpx/gameitem/rubber.rs:158-223 (floating point values as bit patterns) -/
def Rubber.default : Rubber where
  height := 0x41c80000
  hit_height := none
  thickness := 8
  hit_event := false
  material := []
  name := []
  image := []
  elasticity := 0
  elasticity_falloff := 0
  friction := 0
  scatter := 0
  is_collidable := true
  is_visible := true
  radb := none
  static_rendering := true
  show_in_editor := true
  rot_x := 0
  rot_y := 0
  rot_z := 0
  is_reflection_enabled := none
  physics_material := none
  overwrite_physics := none
  timer := TimerData.default
  shared := SharedAttrs.default
  drag_points := []

/-- the value the reader starts from, /repo/src/vpx/gameitem/rubber.rs:244-345 -/
def Rubber.init : Rubber := Rubber.default

/-- the `timer` field, /repo/src/vpx/gameitem/rubber.rs:42 -/
def Rubber.timerL : Lens Rubber TimerData := ⟨fun s => s.timer, fun t s => { s with timer := t }⟩

/-- the shared fields, /repo/src/vpx/gameitem/rubber.rs:45 -/
def Rubber.sharedL : Lens Rubber SharedAttrs := ⟨fun s => s.shared, fun a s => { s with shared := a }⟩

/-- match arms of `Rubber::biff_read`, /repo/src/vpx/gameitem/rubber.rs:244-345 -/
def Rubber.arms : Handlers Rubber :=
  [(tag!"HTTP", fld getF32 fun v s => { s with height := v }),
   (tag!"HTHI", fld getF32 fun v s => { s with hit_height := some v }),
   (tag!"WDTP", fld getI32 fun v s => { s with thickness := v }),
   (tag!"HTEV", fld getBool fun v s => { s with hit_event := v }),
   (tag!"MATR", fld getString fun v s => { s with material := v }),
   (tag!"NAME", fld getWide fun v s => { s with name := v }),
   (tag!"IMAG", fld getString fun v s => { s with image := v }),
   (tag!"ELAS", fld getF32 fun v s => { s with elasticity := v }),
   (tag!"ELFO", fld getF32 fun v s => { s with elasticity_falloff := v }),
   (tag!"RFCT", fld getF32 fun v s => { s with friction := v }),
   (tag!"RSCT", fld getF32 fun v s => { s with scatter := v }),
   (tag!"CLDR", fld getBool fun v s => { s with is_collidable := v }),
   (tag!"RVIS", fld getBool fun v s => { s with is_visible := v }),
   (tag!"RADB", fld getF32 fun v s => { s with radb := some v }),
   (tag!"ESTR", fld getBool fun v s => { s with static_rendering := v }),
   (tag!"ESIE", fld getBool fun v s => { s with show_in_editor := v }),
   (tag!"ROTX", fld getF32 fun v s => { s with rot_x := v }),
   (tag!"ROTY", fld getF32 fun v s => { s with rot_y := v }),
   (tag!"ROTZ", fld getF32 fun v s => { s with rot_z := v }),
   (tag!"REEN", fld getBool fun v s => { s with is_reflection_enabled := some v }),
   (tag!"MAPH", fld getString fun v s => { s with physics_material := some v }),
   (tag!"OVPH", fld getBool fun v s => { s with overwrite_physics := some v }),
   (tag!"PNTS", pure),
   (tag!"DPNT", fld (getChild (readWith DragPoint.arms DragPoint.init)) fun v s => { s with drag_points := s.drag_points ++ [v] })] ++
  timerArms Rubber.timerL ++
  sharedArms Rubber.sharedL

/-- `Rubber::biff_read`, /repo/src/vpx/gameitem/rubber.rs:244-345 -/
def Rubber.read (data : Bytes) : Res Rubber := readStruct Rubber.arms Rubber.init data

/-- calls made by `Rubber::biff_write` before `close(true)`, /repo/src/vpx/gameitem/rubber.rs:347-393 -/
def Rubber.ops (s : Rubber) : List WOp := List.flatten [
  [wF32 tag!"HTTP" s.height],
  opt (wF32 tag!"HTHI") s.hit_height,
  [wI32 tag!"WDTP" s.thickness],
  [wBool tag!"HTEV" s.hit_event],
  [wString tag!"MATR" s.material],
  s.timer.ops,
  [wWide tag!"NAME" s.name],
  [wString tag!"IMAG" s.image],
  [wF32 tag!"ELAS" s.elasticity],
  [wF32 tag!"ELFO" s.elasticity_falloff],
  [wF32 tag!"RFCT" s.friction],
  [wF32 tag!"RSCT" s.scatter],
  [wBool tag!"CLDR" s.is_collidable],
  [wBool tag!"RVIS" s.is_visible],
  opt (wF32 tag!"RADB") s.radb,
  [wBool tag!"ESTR" s.static_rendering],
  [wBool tag!"ESIE" s.show_in_editor],
  [wF32 tag!"ROTX" s.rot_x],
  [wF32 tag!"ROTY" s.rot_y],
  [wF32 tag!"ROTZ" s.rot_z],
  opt (wBool tag!"REEN") s.is_reflection_enabled,
  opt (wString tag!"MAPH") s.physics_material,
  opt (wBool tag!"OVPH") s.overwrite_physics,
  s.shared.ops,
  [wMarker tag!"PNTS"],
  s.drag_points.flatMap fun p => wNested tag!"DPNT" p.ops]

/-- `Rubber::biff_write`, /repo/src/vpx/gameitem/rubber.rs:347-393 -/
def Rubber.write (s : Rubber) : Res Bytes := writeBiff s.ops

end Vpin
