import Verif.Model.Common
import Verif.Model.Enums
import Verif.Model.Items.DragPoint
/-
`Ramp`, /repo/src/vpx/gameitem/ramp.rs
Generated by tools/gen_items.py from the source; each definition cites what it models.
-/
namespace Vpin


/-- `struct Ramp`, /repo/src/vpx/gameitem/ramp.rs:130-192
The five shared fields are grouped in `shared` (see `SharedAttrs`). -/
structure Ramp where
  height_bottom : F32
  height_top : F32
  width_bottom : F32
  width_top : F32
  material : Str
  ramp_type : RampType
  name : Str
  image : Str
  image_alignment : RampImageAlignment
  image_walls : Bool
  left_wall_height : F32
  right_wall_height : F32
  left_wall_height_visible : F32
  right_wall_height_visible : F32
  hit_event : Option Bool
  threshold : Option F32
  elasticity : F32
  friction : F32
  scatter : F32
  is_collidable : Bool
  is_visible : Bool
  depth_bias : F32
  wire_diameter : F32
  wire_distance_x : F32
  wire_distance_y : F32
  is_reflection_enabled : Option Bool
  physics_material : Option Str
  overwrite_physics : Option Bool
  drag_points : List DragPoint
  timer : TimerData
  shared : SharedAttrs
  deriving DecidableEq, Repr

/-- `Ramp::default`, /repo/src/vpx/gameitem/ramp.rs:333-373 (floating point values as bit patterns) -/
def Ramp.default : Ramp where
  height_bottom := 0
  height_top := 0x42480000
  width_bottom := 0x42960000
  width_top := 0x42700000
  material := []
  ramp_type := .Flat
  name := []
  image := []
  image_alignment := .World
  image_walls := true
  left_wall_height := 0x42780000
  right_wall_height := 0x42780000
  left_wall_height_visible := 0x41f00000
  right_wall_height_visible := 0x41f00000
  hit_event := none
  threshold := none
  elasticity := 0
  friction := 0
  scatter := 0
  is_collidable := true
  is_visible := true
  depth_bias := 0
  wire_diameter := 0x41000000
  wire_distance_x := 0x42180000
  wire_distance_y := 0x42b00000
  is_reflection_enabled := none
  physics_material := none
  overwrite_physics := none
  drag_points := []
  timer := TimerData.default
  shared := SharedAttrs.default

/-- the value the reader starts from, /repo/src/vpx/gameitem/ramp.rs:375-494 -/
def Ramp.init : Ramp := Ramp.default

/-- the `timer` field, /repo/src/vpx/gameitem/ramp.rs:182 -/
def Ramp.timerL : Lens Ramp TimerData := ⟨fun s => s.timer, fun t s => { s with timer := t }⟩

/-- the shared fields, /repo/src/vpx/gameitem/ramp.rs:185 -/
def Ramp.sharedL : Lens Ramp SharedAttrs := ⟨fun s => s.shared, fun a s => { s with shared := a }⟩

/-- match arms of `Ramp::biff_read`, /repo/src/vpx/gameitem/ramp.rs:375-494 -/
def Ramp.arms : Handlers Ramp :=
  [(tag!"HTBT", fld getF32 fun v s => { s with height_bottom := v }),
   (tag!"HTTP", fld getF32 fun v s => { s with height_top := v }),
   (tag!"WDBT", fld getF32 fun v s => { s with width_bottom := v }),
   (tag!"WDTP", fld getF32 fun v s => { s with width_top := v }),
   (tag!"MATR", fld getString fun v s => { s with material := v }),
   (tag!"TYPE", fld (getEnum RampType.ofU32) fun v s => { s with ramp_type := v }),
   (tag!"NAME", fld getWide fun v s => { s with name := v }),
   (tag!"IMAG", fld getString fun v s => { s with image := v }),
   (tag!"ALGN", fld (getEnum RampImageAlignment.ofU32) fun v s => { s with image_alignment := v }),
   (tag!"IMGW", fld getBool fun v s => { s with image_walls := v }),
   (tag!"WLHL", fld getF32 fun v s => { s with left_wall_height := v }),
   (tag!"WLHR", fld getF32 fun v s => { s with right_wall_height := v }),
   (tag!"WVHL", fld getF32 fun v s => { s with left_wall_height_visible := v }),
   (tag!"WVHR", fld getF32 fun v s => { s with right_wall_height_visible := v }),
   (tag!"HTEV", fld getBool fun v s => { s with hit_event := some v }),
   (tag!"THRS", fld getF32 fun v s => { s with threshold := some v }),
   (tag!"ELAS", fld getF32 fun v s => { s with elasticity := v }),
   (tag!"RFCT", fld getF32 fun v s => { s with friction := v }),
   (tag!"RSCT", fld getF32 fun v s => { s with scatter := v }),
   (tag!"CLDR", fld getBool fun v s => { s with is_collidable := v }),
   (tag!"RVIS", fld getBool fun v s => { s with is_visible := v }),
   (tag!"RADB", fld getF32 fun v s => { s with depth_bias := v }),
   (tag!"RADI", fld getF32 fun v s => { s with wire_diameter := v }),
   (tag!"RADX", fld getF32 fun v s => { s with wire_distance_x := v }),
   (tag!"RADY", fld getF32 fun v s => { s with wire_distance_y := v }),
   (tag!"REEN", fld getBool fun v s => { s with is_reflection_enabled := some v }),
   (tag!"MAPH", fld getString fun v s => { s with physics_material := some v }),
   (tag!"OVPH", fld getBool fun v s => { s with overwrite_physics := some v }),
   (tag!"PNTS", pure),
   (tag!"DPNT", fld (getChild (readWith DragPoint.arms DragPoint.init)) fun v s => { s with drag_points := s.drag_points ++ [v] })] ++
  timerArms Ramp.timerL ++
  sharedArms Ramp.sharedL

/-- `Ramp::biff_read`, /repo/src/vpx/gameitem/ramp.rs:375-494 -/
def Ramp.read (data : Bytes) : Res Ramp := readStruct Ramp.arms Ramp.init data

/-- calls made by `Ramp::biff_write` before `close(true)`, /repo/src/vpx/gameitem/ramp.rs:496-548 -/
def Ramp.ops (s : Ramp) : List WOp := List.flatten [
  [wF32 tag!"HTBT" s.height_bottom],
  [wF32 tag!"HTTP" s.height_top],
  [wF32 tag!"WDBT" s.width_bottom],
  [wF32 tag!"WDTP" s.width_top],
  [wString tag!"MATR" s.material],
  s.timer.ops,
  [wEnum RampType.toU32 tag!"TYPE" s.ramp_type],
  [wWide tag!"NAME" s.name],
  [wString tag!"IMAG" s.image],
  [wEnum RampImageAlignment.toU32 tag!"ALGN" s.image_alignment],
  [wBool tag!"IMGW" s.image_walls],
  [wF32 tag!"WLHL" s.left_wall_height],
  [wF32 tag!"WLHR" s.right_wall_height],
  [wF32 tag!"WVHL" s.left_wall_height_visible],
  [wF32 tag!"WVHR" s.right_wall_height_visible],
  opt (wBool tag!"HTEV") s.hit_event,
  opt (wF32 tag!"THRS") s.threshold,
  [wF32 tag!"ELAS" s.elasticity],
  [wF32 tag!"RFCT" s.friction],
  [wF32 tag!"RSCT" s.scatter],
  [wBool tag!"CLDR" s.is_collidable],
  [wBool tag!"RVIS" s.is_visible],
  [wF32 tag!"RADB" s.depth_bias],
  [wF32 tag!"RADI" s.wire_diameter],
  [wF32 tag!"RADX" s.wire_distance_x],
  [wF32 tag!"RADY" s.wire_distance_y],
  opt (wBool tag!"REEN") s.is_reflection_enabled,
  opt (wString tag!"MAPH") s.physics_material,
  opt (wBool tag!"OVPH") s.overwrite_physics,
  s.shared.ops,
  [wMarker tag!"PNTS"],
  s.drag_points.flatMap fun p => wNested tag!"DPNT" p.ops]

/-- `Ramp::biff_write`, /repo/src/vpx/gameitem/ramp.rs:496-548 -/
def Ramp.write (s : Ramp) : Res Bytes := writeBiff s.ops

end Vpin
