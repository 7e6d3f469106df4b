import Verif.Model.Common
import Verif.Model.Enums
import Verif.Model.Items.DragPoint
/-
`Trigger`, /repo/src/vpx/gameitem/trigger.rs
Generated by tools/gen_items.py from the source; each definition cites what it models.
-/
namespace Vpin


/-- `struct Trigger`, /repo/src/vpx/gameitem/trigger.rs:149-240
The five shared fields are grouped in `shared` (see `SharedAttrs`). -/
structure Trigger where
  name : Str
  center : Vertex2D
  radius : F32
  rotation : F32
  wire_thickness : Option F32
  scale_x : F32
  scale_y : F32
  material : Str
  surface : Str
  is_visible : Bool
  is_enabled : Bool
  hit_height : F32
  shape : TriggerShape
  anim_speed : F32
  is_reflection_enabled : Option Bool
  timer : TimerData
  shared : SharedAttrs
  drag_points : List DragPoint
  deriving DecidableEq, Repr

/-- `Trigger::default`, /repo/src/vpx/gameitem/trigger.rs:341-368 (floating point values as bit patterns) -/
def Trigger.default : Trigger where
  name := []
  center := Vertex2D.default
  radius := 0x41c80000
  rotation := 0
  wire_thickness := none
  scale_x := 0
  scale_y := 0
  material := []
  surface := []
  is_visible := true
  is_enabled := true
  hit_height := 0x42480000
  shape := .WireA
  anim_speed := 0
  is_reflection_enabled := none
  timer := TimerData.default
  shared := SharedAttrs.default
  drag_points := []

/-- the value the reader starts from, /repo/src/vpx/gameitem/trigger.rs:370-449 -/
def Trigger.init : Trigger := Trigger.default

/-- the `timer` field, /repo/src/vpx/gameitem/trigger.rs:228 -/
def Trigger.timerL : Lens Trigger TimerData := ⟨fun s => s.timer, fun t s => { s with timer := t }⟩

/-- the shared fields, /repo/src/vpx/gameitem/trigger.rs:231 -/
def Trigger.sharedL : Lens Trigger SharedAttrs := ⟨fun s => s.shared, fun a s => { s with shared := a }⟩

/-- match arms of `Trigger::biff_read`, /repo/src/vpx/gameitem/trigger.rs:370-449 -/
def Trigger.arms : Handlers Trigger :=
  [(tag!"VCEN", fld getVertex2D fun v s => { s with center := v }),
   (tag!"RADI", fld getF32 fun v s => { s with radius := v }),
   (tag!"ROTA", fld getF32 fun v s => { s with rotation := v }),
   (tag!"WITI", fld getF32 fun v s => { s with wire_thickness := some v }),
   (tag!"SCAX", fld getF32 fun v s => { s with scale_x := v }),
   (tag!"SCAY", fld getF32 fun v s => { s with scale_y := v }),
   (tag!"MATR", fld getString fun v s => { s with material := v }),
   (tag!"SURF", fld getString fun v s => { s with surface := v }),
   (tag!"VSBL", fld getBool fun v s => { s with is_visible := v }),
   (tag!"EBLD", fld getBool fun v s => { s with is_enabled := v }),
   (tag!"THOT", fld getF32 fun v s => { s with hit_height := v }),
   (tag!"NAME", fld getWide fun v s => { s with name := v }),
   (tag!"SHAP", fld (getEnum TriggerShape.ofU32) fun v s => { s with shape := v }),
   (tag!"ANSP", fld getF32 fun v s => { s with anim_speed := v }),
   (tag!"REEN", fld getBool fun v s => { s with is_reflection_enabled := some v }),
   (tag!"DPNT", fld (getChild (readWith DragPoint.arms DragPoint.init)) fun v s => { s with drag_points := s.drag_points ++ [v] })] ++
  timerArms Trigger.timerL ++
  sharedArms Trigger.sharedL

/-- `Trigger::biff_read`, /repo/src/vpx/gameitem/trigger.rs:370-449 -/
def Trigger.read (data : Bytes) : Res Trigger := readStruct Trigger.arms Trigger.init data

/-- calls made by `Trigger::biff_write` before `close(true)`, /repo/src/vpx/gameitem/trigger.rs:451-483 -/
def Trigger.ops (s : Trigger) : List WOp := List.flatten [
  [wVertex2D tag!"VCEN" s.center],
  [wF32 tag!"RADI" s.radius],
  [wF32 tag!"ROTA" s.rotation],
  opt (wF32 tag!"WITI") s.wire_thickness,
  [wF32 tag!"SCAX" s.scale_x],
  [wF32 tag!"SCAY" s.scale_y],
  s.timer.ops,
  [wString tag!"SURF" s.surface],
  [wString tag!"MATR" s.material],
  [wBool tag!"EBLD" s.is_enabled],
  [wBool tag!"VSBL" s.is_visible],
  [wF32 tag!"THOT" s.hit_height],
  [wWide tag!"NAME" s.name],
  [wEnum TriggerShape.toU32 tag!"SHAP" s.shape],
  [wF32 tag!"ANSP" s.anim_speed],
  opt (wBool tag!"REEN") s.is_reflection_enabled,
  s.shared.ops,
  s.drag_points.flatMap fun p => wNested tag!"DPNT" p.ops]

/-- `Trigger::biff_write`, /repo/src/vpx/gameitem/trigger.rs:451-483 -/
def Trigger.write (s : Trigger) : Res Bytes := writeBiff s.ops

end Vpin
