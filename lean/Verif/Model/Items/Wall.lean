import Verif.Model.Common
import Verif.Model.Enums
import Verif.Model.Items.DragPoint
/-
`Wall`, /repo/src/vpx/gameitem/wall.rs
Generated by tools/gen_items.py from the source; each definition cites what it models.
-/
namespace Vpin


/-- `struct Wall`, /repo/src/vpx/gameitem/wall.rs:14-94
The five shared fields are grouped in `shared` (see `SharedAttrs`). -/
structure Wall where
  name : Str
  hit_event : Bool
  is_droppable : Bool
  is_flipbook : Bool
  is_bottom_solid : Bool
  is_collidable : Bool
  threshold : F32
  image : Str
  side_image : Str
  side_material : Str
  top_material : Str
  slingshot_material : Str
  height_bottom : F32
  height_top : F32
  display_texture : Bool
  slingshot_force : F32
  slingshot_threshold : F32
  elasticity : F32
  elasticity_falloff : Option F32
  friction : F32
  scatter : F32
  is_top_bottom_visible : Bool
  slingshot_animation : Bool
  is_side_visible : Bool
  disable_lighting_top_old : Option F32
  disable_lighting_top : Option F32
  disable_lighting_below : Option F32
  is_reflection_enabled : Option Bool
  physics_material : Option Str
  overwrite_physics : Option Bool
  timer : TimerData
  shared : SharedAttrs
  drag_points : List DragPoint
  deriving DecidableEq, Repr

/-- `Wall::default`, /repo/src/vpx/gameitem/wall.rs:241-283 (floating point values as bit patterns) -/
def Wall.default : Wall where
  name := []
  hit_event := false
  is_droppable := false
  is_flipbook := false
  is_bottom_solid := false
  is_collidable := true
  threshold := 0x40000000
  image := []
  side_image := []
  side_material := []
  top_material := []
  slingshot_material := []
  height_bottom := 0
  height_top := 0x42480000
  display_texture := false
  slingshot_force := 0x42a00000
  slingshot_threshold := 0
  elasticity := 0x3e99999a
  elasticity_falloff := none
  friction := 0x3e99999a
  scatter := 0
  is_top_bottom_visible := true
  slingshot_animation := true
  is_side_visible := true
  disable_lighting_top_old := none
  disable_lighting_top := none
  disable_lighting_below := none
  is_reflection_enabled := none
  physics_material := none
  overwrite_physics := none
  timer := TimerData.default
  shared := SharedAttrs.default
  drag_points := []

/-- the value the reader starts from, /repo/src/vpx/gameitem/wall.rs:285-469 -/
def Wall.init : Wall := Wall.default

/-- the `timer` field, /repo/src/vpx/gameitem/wall.rs:83 -/
def Wall.timerL : Lens Wall TimerData := ⟨fun s => s.timer, fun t s => { s with timer := t }⟩

/-- the shared fields, /repo/src/vpx/gameitem/wall.rs:86 -/
def Wall.sharedL : Lens Wall SharedAttrs := ⟨fun s => s.shared, fun a s => { s with shared := a }⟩

/-- match arms of `Wall::biff_read`, /repo/src/vpx/gameitem/wall.rs:285-469 -/
def Wall.arms : Handlers Wall :=
  [(tag!"HTEV", fld getBool fun v s => { s with hit_event := v }),
   (tag!"DROP", fld getBool fun v s => { s with is_droppable := v }),
   (tag!"FLIP", fld getBool fun v s => { s with is_flipbook := v }),
   (tag!"BOTS", fld getBool fun v s => { s with is_bottom_solid := v }),
   (tag!"COLL", fld getBool fun v s => { s with is_collidable := v }),
   (tag!"THRS", fld getF32 fun v s => { s with threshold := v }),
   (tag!"IMGF", fld getString fun v s => { s with image := v }),
   (tag!"IMGS", fld getString fun v s => { s with side_image := v }),
   (tag!"MATR", fld getString fun v s => { s with side_material := v }),
   (tag!"MATP", fld getString fun v s => { s with top_material := v }),
   (tag!"MATL", fld getString fun v s => { s with slingshot_material := v }),
   (tag!"HTBT", fld getF32 fun v s => { s with height_bottom := v }),
   (tag!"NAME", fld getWide fun v s => { s with name := v }),
   (tag!"DTEX", fld getBool fun v s => { s with display_texture := v }),
   (tag!"SLFO", fld getF32 fun v s => { s with slingshot_force := v }),
   (tag!"SLTH", fld getF32 fun v s => { s with slingshot_threshold := v }),
   (tag!"SLAN", fld getBool fun v s => { s with slingshot_animation := v }),
   (tag!"ELAS", fld getF32 fun v s => { s with elasticity := v }),
   (tag!"ELFO", fld getF32 fun v s => { s with elasticity_falloff := some v }),
   (tag!"FRIC", fld getF32 fun v s => { s with friction := v }),
   (tag!"SCAT", fld getF32 fun v s => { s with scatter := v }),
   (tag!"TBVI", fld getBool fun v s => { s with is_top_bottom_visible := v }),
   (tag!"OVPH", fld getBool fun v s => { s with overwrite_physics := some v }),
   (tag!"DLTO", fld getF32 fun v s => { s with disable_lighting_top := some v }),
   (tag!"DLBE", fld getF32 fun v s => { s with disable_lighting_below := some v }),
   (tag!"SIVI", fld getBool fun v s => { s with is_side_visible := v }),
   (tag!"REFL", fld getBool fun v s => { s with is_reflection_enabled := some v }),
   (tag!"TMRN", fld getBool fun v s => { s with timer := { s.timer with is_enabled := v } }),
   (tag!"PMAT", fld getString fun v s => { s with physics_material := some v }),
   (tag!"ISBS", fld getBool fun v s => { s with is_bottom_solid := v }),
   (tag!"CLDW", fld getBool fun v s => { s with is_collidable := v }),
   (tag!"VSBL", fld getBool fun v s => { s with is_top_bottom_visible := v }),
   (tag!"SLGA", fld getBool fun v s => { s with slingshot_animation := v }),
   (tag!"SVBL", fld getBool fun v s => { s with is_side_visible := v }),
   (tag!"DILI", fld getQuant8 fun v s => { s with disable_lighting_top_old := some v }),
   (tag!"DILT", fld getF32 fun v s => { s with disable_lighting_top := some v }),
   (tag!"DILB", fld getF32 fun v s => { s with disable_lighting_below := some v }),
   (tag!"MAPH", fld getString fun v s => { s with physics_material := some v }),
   (tag!"REEN", fld getBool fun v s => { s with is_reflection_enabled := some v }),
   (tag!"IMAG", fld getString fun v s => { s with image := v }),
   (tag!"SIMG", fld getString fun v s => { s with side_image := v }),
   (tag!"SIMA", fld getString fun v s => { s with side_material := v }),
   (tag!"TOMA", fld getString fun v s => { s with top_material := v }),
   (tag!"SLMA", fld getString fun v s => { s with slingshot_material := v }),
   (tag!"HTTP", fld getF32 fun v s => { s with height_top := v }),
   (tag!"DSPT", fld getBool fun v s => { s with display_texture := v }),
   (tag!"SLGF", fld getF32 fun v s => { s with slingshot_force := v }),
   (tag!"WFCT", fld getF32 fun v s => { s with friction := v }),
   (tag!"WSCT", fld getF32 fun v s => { s with scatter := v }),
   (tag!"PNTS", pure),
   (tag!"DPNT", fld (getChild (readWith DragPoint.arms DragPoint.init)) fun v s => { s with drag_points := s.drag_points ++ [v] })] ++
  timerArms Wall.timerL ++
  sharedArms Wall.sharedL

/-- `Wall::biff_read`, /repo/src/vpx/gameitem/wall.rs:285-469 -/
def Wall.read (data : Bytes) : Res Wall := readStruct Wall.arms Wall.init data

/-- calls made by `Wall::biff_write` before `close(true)`, /repo/src/vpx/gameitem/wall.rs:471-529 -/
def Wall.ops (s : Wall) : List WOp := List.flatten [
  [wBool tag!"HTEV" s.hit_event],
  [wBool tag!"DROP" s.is_droppable],
  [wBool tag!"FLIP" s.is_flipbook],
  [wBool tag!"ISBS" s.is_bottom_solid],
  [wBool tag!"CLDW" s.is_collidable],
  s.timer.ops,
  [wF32 tag!"THRS" s.threshold],
  [wString tag!"IMAG" s.image],
  [wString tag!"SIMG" s.side_image],
  [wString tag!"SIMA" s.side_material],
  [wString tag!"TOMA" s.top_material],
  [wString tag!"SLMA" s.slingshot_material],
  [wF32 tag!"HTBT" s.height_bottom],
  [wF32 tag!"HTTP" s.height_top],
  [wWide tag!"NAME" s.name],
  [wBool tag!"DSPT" s.display_texture],
  [wF32 tag!"SLGF" s.slingshot_force],
  [wF32 tag!"SLTH" s.slingshot_threshold],
  [wF32 tag!"ELAS" s.elasticity],
  opt (wF32 tag!"ELFO") s.elasticity_falloff,
  [wF32 tag!"WFCT" s.friction],
  [wF32 tag!"WSCT" s.scatter],
  [wBool tag!"VSBL" s.is_top_bottom_visible],
  [wBool tag!"SLGA" s.slingshot_animation],
  [wBool tag!"SVBL" s.is_side_visible],
  opt (wQuant8 tag!"DILI") s.disable_lighting_top_old,
  opt (wF32 tag!"DILT") s.disable_lighting_top,
  opt (wF32 tag!"DILB") s.disable_lighting_below,
  opt (wBool tag!"REEN") s.is_reflection_enabled,
  opt (wString tag!"MAPH") s.physics_material,
  opt (wBool tag!"OVPH") s.overwrite_physics,
  s.shared.ops,
  [wMarker tag!"PNTS"],
  s.drag_points.flatMap fun p => wNested tag!"DPNT" p.ops]

/-- `Wall::biff_write`, /repo/src/vpx/gameitem/wall.rs:471-529 -/
def Wall.write (s : Wall) : Res Bytes := writeBiff s.ops

end Vpin
