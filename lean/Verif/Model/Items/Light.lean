import Verif.Model.Common
import Verif.Model.Enums
import Verif.Model.Items.DragPoint
/-
`Light`, /repo/src/vpx/gameitem/light.rs
Generated by tools/gen_items.py from the source; each definition cites what it models.
-/
namespace Vpin


/-- `struct Light`, /repo/src/vpx/gameitem/light.rs:297-704
The five shared fields are grouped in `shared` (see `SharedAttrs`). -/
structure Light where
  name : Str
  center : Vertex2D
  height : Option F32
  falloff_radius : F32
  falloff_power : F32
  state_u32 : UInt32
  state : Option F32
  color : Color
  color2 : Color
  blink_pattern : Str
  image : Str
  blink_interval : UInt32
  intensity : F32
  transmission_scale : F32
  surface : Str
  is_backglass : Bool
  depth_bias : F32
  fade_speed_up : F32
  fade_speed_down : F32
  is_bulb_light : Bool
  is_image_mode : Bool
  show_bulb_mesh : Bool
  has_static_bulb_mesh : Option Bool
  show_reflection_on_ball : Bool
  mesh_radius : F32
  bulb_modulate_vs_add : F32
  bulb_halo_height : F32
  shadows : Option ShadowMode
  fader : Option Fader
  visible : Option Bool
  timer : TimerData
  shared : SharedAttrs
  drag_points : List DragPoint
  deriving DecidableEq, Repr

/-- `Light::default`, /repo/src/vpx/gameitem/light.rs:853-935 (floating point values as bit patterns) -/
def Light.default : Light where
  name := []
  center := Vertex2D.default
  height := none
  falloff_radius := 0
  falloff_power := 0
  state_u32 := 0
  state := none
  color := Color.rgb 255 169 87
  color2 := Color.rgb 255 169 87
  blink_pattern := "10".toList
  image := []
  blink_interval := 0
  intensity := 0x3f800000
  transmission_scale := 0x3f000000
  surface := []
  is_backglass := false
  depth_bias := 0
  fade_speed_up := 0x3e4ccccd
  fade_speed_down := 0x3e4ccccd
  is_bulb_light := false
  is_image_mode := false
  show_bulb_mesh := false
  has_static_bulb_mesh := none
  show_reflection_on_ball := true
  mesh_radius := 0x41a00000
  bulb_modulate_vs_add := 0x3f666666
  bulb_halo_height := 0x41e00000
  shadows := none
  fader := none
  visible := none
  timer := TimerData.default
  shared := SharedAttrs.default
  drag_points := []

/-- the value the reader starts from, /repo/src/vpx/gameitem/light.rs:937-1001 -/
def Light.init : Light := Light.default

/-- the `timer` field, /repo/src/vpx/gameitem/light.rs:691 -/
def Light.timerL : Lens Light TimerData := ⟨fun s => s.timer, fun t s => { s with timer := t }⟩

/-- the shared fields, /repo/src/vpx/gameitem/light.rs:694 -/
def Light.sharedL : Lens Light SharedAttrs := ⟨fun s => s.shared, fun a s => { s with shared := a }⟩

/-- match arms of `Light::biff_read`, /repo/src/vpx/gameitem/light.rs:937-1001 -/
def Light.arms : Handlers Light :=
  [(tag!"VCEN", fld getVertex2D fun v s => { s with center := v }),
   (tag!"HGHT", fld getF32 fun v s => { s with height := some v }),
   (tag!"RADI", fld getF32 fun v s => { s with falloff_radius := v }),
   (tag!"FAPO", fld getF32 fun v s => { s with falloff_power := v }),
   (tag!"STAT", fld getU32 fun v s => { s with state_u32 := v }),
   (tag!"STTF", fld getF32 fun v s => { s with state := some v }),
   (tag!"COLR", fld getColor fun v s => { s with color := v }),
   (tag!"COL2", fld getColor fun v s => { s with color2 := v }),
   (tag!"BPAT", fld getString fun v s => { s with blink_pattern := v }),
   (tag!"IMG1", fld getString fun v s => { s with image := v }),
   (tag!"BINT", fld getU32 fun v s => { s with blink_interval := v }),
   (tag!"BWTH", fld getF32 fun v s => { s with intensity := v }),
   (tag!"TRMS", fld getF32 fun v s => { s with transmission_scale := v }),
   (tag!"SURF", fld getString fun v s => { s with surface := v }),
   (tag!"NAME", fld getWide fun v s => { s with name := v }),
   (tag!"BGLS", fld getBool fun v s => { s with is_backglass := v }),
   (tag!"LIDB", fld getF32 fun v s => { s with depth_bias := v }),
   (tag!"FASP", fld getF32 fun v s => { s with fade_speed_up := v }),
   (tag!"FASD", fld getF32 fun v s => { s with fade_speed_down := v }),
   (tag!"BULT", fld getBool fun v s => { s with is_bulb_light := v }),
   (tag!"IMMO", fld getBool fun v s => { s with is_image_mode := v }),
   (tag!"SHBM", fld getBool fun v s => { s with show_bulb_mesh := v }),
   (tag!"STBM", fld getBool fun v s => { s with has_static_bulb_mesh := some v }),
   (tag!"SHRB", fld getBool fun v s => { s with show_reflection_on_ball := v }),
   (tag!"BMSC", fld getF32 fun v s => { s with mesh_radius := v }),
   (tag!"BMVA", fld getF32 fun v s => { s with bulb_modulate_vs_add := v }),
   (tag!"BHHI", fld getF32 fun v s => { s with bulb_halo_height := v }),
   (tag!"SHDW", fld (getEnum ShadowMode.ofU32) fun v s => { s with shadows := some v }),
   (tag!"FADE", fld (getEnum Fader.ofU32) fun v s => { s with fader := some v }),
   (tag!"VSBL", fld getBool fun v s => { s with visible := some v }),
   (tag!"DPNT", fld (getChild (readWith DragPoint.arms DragPoint.init)) fun v s => { s with drag_points := s.drag_points ++ [v] })] ++
  timerArms Light.timerL ++
  sharedArms Light.sharedL

/-- `Light::biff_read`, /repo/src/vpx/gameitem/light.rs:937-1001 -/
def Light.read (data : Bytes) : Res Light := readStruct Light.arms Light.init data

/-- calls made by `Light::biff_write` before `close(true)`, /repo/src/vpx/gameitem/light.rs:1003-1060 -/
def Light.ops (s : Light) : List WOp := List.flatten [
  [wVertex2D tag!"VCEN" s.center],
  opt (wF32 tag!"HGHT") s.height,
  [wF32 tag!"RADI" s.falloff_radius],
  [wF32 tag!"FAPO" s.falloff_power],
  [wU32 tag!"STAT" s.state_u32],
  opt (wF32 tag!"STTF") s.state,
  [wColor tag!"COLR" s.color],
  [wColor tag!"COL2" s.color2],
  s.timer.ops,
  [wString tag!"BPAT" s.blink_pattern],
  [wString tag!"IMG1" s.image],
  [wU32 tag!"BINT" s.blink_interval],
  [wF32 tag!"BWTH" s.intensity],
  [wF32 tag!"TRMS" s.transmission_scale],
  [wString tag!"SURF" s.surface],
  [wWide tag!"NAME" s.name],
  [wBool tag!"BGLS" s.is_backglass],
  [wF32 tag!"LIDB" s.depth_bias],
  [wF32 tag!"FASP" s.fade_speed_up],
  [wF32 tag!"FASD" s.fade_speed_down],
  [wBool tag!"BULT" s.is_bulb_light],
  [wBool tag!"IMMO" s.is_image_mode],
  [wBool tag!"SHBM" s.show_bulb_mesh],
  opt (wBool tag!"STBM") s.has_static_bulb_mesh,
  [wBool tag!"SHRB" s.show_reflection_on_ball],
  [wF32 tag!"BMSC" s.mesh_radius],
  [wF32 tag!"BMVA" s.bulb_modulate_vs_add],
  [wF32 tag!"BHHI" s.bulb_halo_height],
  opt (wEnum ShadowMode.toU32 tag!"SHDW") s.shadows,
  opt (wEnum Fader.toU32 tag!"FADE") s.fader,
  opt (wBool tag!"VSBL") s.visible,
  s.shared.ops,
  s.drag_points.flatMap fun p => wNested tag!"DPNT" p.ops]

/-- `Light::biff_write`, /repo/src/vpx/gameitem/light.rs:1003-1060 -/
def Light.write (s : Light) : Res Bytes := writeBiff s.ops

end Vpin
