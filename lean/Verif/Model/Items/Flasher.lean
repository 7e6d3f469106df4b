import Verif.Model.Common
import Verif.Model.Enums
import Verif.Model.Items.DragPoint
/-
`Flasher`, /repo/src/vpx/gameitem/flasher.rs
Generated by tools/gen_items.py from the source; each definition cites what it models.
-/
namespace Vpin


/-- `struct Flasher`, /repo/src/vpx/gameitem/flasher.rs:365-518
The five shared fields are grouped in `shared` (see `SharedAttrs`). -/
structure Flasher where
  height : F32
  pos_x : F32
  pos_y : F32
  rot_x : F32
  rot_y : F32
  rot_z : F32
  color : Color
  name : Str
  image_a : Str
  image_b : Str
  alpha : Int32
  modulate_vs_add : F32
  is_visible : Bool
  add_blend : Bool
  is_dmd : Option Bool
  render_mode : Option RenderMode
  render_style : Option UInt32
  glass_roughness : Option F32
  glass_ambient : Option UInt32
  glass_pad_top : Option F32
  glass_pad_bottom : Option F32
  glass_pad_left : Option F32
  glass_pad_right : Option F32
  image_src_link : Option Str
  display_texture : Bool
  depth_bias : F32
  image_alignment : RampImageAlignment
  filter : Filter
  filter_amount : UInt32
  light_map : Option Str
  backglass : Option Bool
  drag_points : List DragPoint
  timer : TimerData
  shared : SharedAttrs
  deriving DecidableEq, Repr

/-- `Flasher::default`, /repo/src/vpx/gameitem/flasher.rs:521-565 (floating point values as bit patterns) -/
def Flasher.default : Flasher where
  height := 0x42480000
  pos_x := 0
  pos_y := 0
  rot_x := 0
  rot_y := 0
  rot_z := 0
  color := Color.rgb 255 255 255
  name := []
  image_a := []
  image_b := []
  alpha := 100
  modulate_vs_add := 0x3f666666
  is_visible := true
  add_blend := false
  is_dmd := none
  render_mode := none
  render_style := none
  glass_roughness := none
  glass_ambient := none
  glass_pad_top := none
  glass_pad_bottom := none
  glass_pad_left := none
  glass_pad_right := none
  image_src_link := none
  display_texture := false
  depth_bias := 0
  image_alignment := .Wrap
  filter := .Overlay
  filter_amount := 100
  light_map := none
  backglass := none
  drag_points := []
  timer := TimerData.default
  shared := SharedAttrs.default

/-- the value the reader starts from, /repo/src/vpx/gameitem/flasher.rs:713-838 -/
def Flasher.init : Flasher := Flasher.default

/-- the `timer` field, /repo/src/vpx/gameitem/flasher.rs:508 -/
def Flasher.timerL : Lens Flasher TimerData := ⟨fun s => s.timer, fun t s => { s with timer := t }⟩

/-- the shared fields, /repo/src/vpx/gameitem/flasher.rs:511 -/
def Flasher.sharedL : Lens Flasher SharedAttrs := ⟨fun s => s.shared, fun a s => { s with shared := a }⟩

/-- match arms of `Flasher::biff_read`, /repo/src/vpx/gameitem/flasher.rs:713-838 -/
def Flasher.arms : Handlers Flasher :=
  [(tag!"FHEI", fld getF32 fun v s => { s with height := v }),
   (tag!"FLAX", fld getF32 fun v s => { s with pos_x := v }),
   (tag!"FLAY", fld getF32 fun v s => { s with pos_y := v }),
   (tag!"FROX", fld getF32 fun v s => { s with rot_x := v }),
   (tag!"FROY", fld getF32 fun v s => { s with rot_y := v }),
   (tag!"FROZ", fld getF32 fun v s => { s with rot_z := v }),
   (tag!"COLR", fld getColor fun v s => { s with color := v }),
   (tag!"NAME", fld getWide fun v s => { s with name := v }),
   (tag!"IMAG", fld getString fun v s => { s with image_a := v }),
   (tag!"IMAB", fld getString fun v s => { s with image_b := v }),
   (tag!"FALP", fld getI32 fun v s => { s with alpha := v }),
   (tag!"MOVA", fld getF32 fun v s => { s with modulate_vs_add := v }),
   (tag!"FVIS", fld getBool fun v s => { s with is_visible := v }),
   (tag!"DSPT", fld getBool fun v s => { s with display_texture := v }),
   (tag!"ADDB", fld getBool fun v s => { s with add_blend := v }),
   (tag!"IDMD", fld getBool fun v s => { s with is_dmd := some v }),
   (tag!"RDMD", fld (getEnum RenderMode.ofU32) fun v s => { s with render_mode := some v }),
   (tag!"RSTL", fld getU32 fun v s => { s with render_style := some v }),
   (tag!"GRGH", fld getF32 fun v s => { s with glass_roughness := some v }),
   (tag!"GAMB", fld getU32 fun v s => { s with glass_ambient := some v }),
   (tag!"GTOP", fld getF32 fun v s => { s with glass_pad_top := some v }),
   (tag!"GBOT", fld getF32 fun v s => { s with glass_pad_bottom := some v }),
   (tag!"GLFT", fld getF32 fun v s => { s with glass_pad_left := some v }),
   (tag!"GRHT", fld getF32 fun v s => { s with glass_pad_right := some v }),
   (tag!"LINK", fld getString fun v s => { s with image_src_link := some v }),
   (tag!"FLDB", fld getF32 fun v s => { s with depth_bias := v }),
   (tag!"ALGN", fld (getEnum RampImageAlignment.ofU32) fun v s => { s with image_alignment := v }),
   (tag!"FILT", fld (getEnum Filter.ofU32) fun v s => { s with filter := v }),
   (tag!"FIAM", fld getU32 fun v s => { s with filter_amount := v }),
   (tag!"LMAP", fld getString fun v s => { s with light_map := some v }),
   (tag!"BGLS", fld getBool fun v s => { s with backglass := some v }),
   (tag!"DPNT", fld (getChild (readWith DragPoint.arms DragPoint.init)) fun v s => { s with drag_points := s.drag_points ++ [v] })] ++
  timerArms Flasher.timerL ++
  sharedArms Flasher.sharedL

/-- `Flasher::biff_read`, /repo/src/vpx/gameitem/flasher.rs:713-838 -/
def Flasher.read (data : Bytes) : Res Flasher := readStruct Flasher.arms Flasher.init data

/-- calls made by `Flasher::biff_write` before `close(true)`, /repo/src/vpx/gameitem/flasher.rs:840-908 -/
def Flasher.ops (s : Flasher) : List WOp := List.flatten [
  [wF32 tag!"FHEI" s.height],
  [wF32 tag!"FLAX" s.pos_x],
  [wF32 tag!"FLAY" s.pos_y],
  [wF32 tag!"FROX" s.rot_x],
  [wF32 tag!"FROY" s.rot_y],
  [wF32 tag!"FROZ" s.rot_z],
  [wColor tag!"COLR" s.color],
  s.timer.ops,
  [wWide tag!"NAME" s.name],
  [wString tag!"IMAG" s.image_a],
  [wString tag!"IMAB" s.image_b],
  [wI32 tag!"FALP" s.alpha],
  [wF32 tag!"MOVA" s.modulate_vs_add],
  [wBool tag!"FVIS" s.is_visible],
  [wBool tag!"DSPT" s.display_texture],
  [wBool tag!"ADDB" s.add_blend],
  opt (wBool tag!"IDMD") s.is_dmd,
  opt (wEnum RenderMode.toU32 tag!"RDMD") s.render_mode,
  opt (wU32 tag!"RSTL") s.render_style,
  opt (wF32 tag!"GRGH") s.glass_roughness,
  opt (wU32 tag!"GAMB") s.glass_ambient,
  opt (wF32 tag!"GTOP") s.glass_pad_top,
  opt (wF32 tag!"GBOT") s.glass_pad_bottom,
  opt (wF32 tag!"GLFT") s.glass_pad_left,
  opt (wF32 tag!"GRHT") s.glass_pad_right,
  opt (wString tag!"LINK") s.image_src_link,
  [wF32 tag!"FLDB" s.depth_bias],
  [wEnum RampImageAlignment.toU32 tag!"ALGN" s.image_alignment],
  [wEnum Filter.toU32 tag!"FILT" s.filter],
  [wU32 tag!"FIAM" s.filter_amount],
  opt (wString tag!"LMAP") s.light_map,
  opt (wBool tag!"BGLS") s.backglass,
  s.shared.ops,
  s.drag_points.flatMap fun p => wNested tag!"DPNT" p.ops]

/-- `Flasher::biff_write`, /repo/src/vpx/gameitem/flasher.rs:840-908 -/
def Flasher.write (s : Flasher) : Res Bytes := writeBiff s.ops

end Vpin
