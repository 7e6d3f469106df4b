import Verif.Model.Common
import Verif.Model.Enums
/-
`LightSequencer`, /repo/src/vpx/gameitem/lightsequencer.rs
Generated by tools/gen_items.py from the source; each definition cites what it models.
-/
namespace Vpin


/-- `struct LightSequencer`, /repo/src/vpx/gameitem/lightsequencer.rs:9-32 -/
structure LightSequencer where
  center : Vertex2D
  collection : Str
  pos_x : F32
  pos_y : F32
  update_interval : UInt32
  name : Str
  backglass : Bool
  timer : TimerData
  is_locked : Option Bool
  editor_layer : Option UInt32
  editor_layer_name : Option Str
  editor_layer_visibility : Option Bool
  part_group_name : Option Str
  deriving DecidableEq, Repr

/-- `LightSequencer::default`, /repo/src/vpx/gameitem/lightsequencer.rs:105-123 (floating point values as bit patterns) -/
def LightSequencer.default : LightSequencer where
  center := Vertex2D.default
  collection := []
  pos_x := 0
  pos_y := 0
  update_interval := 25
  name := []
  backglass := false
  timer := TimerData.default
  is_locked := none
  editor_layer := none
  editor_layer_name := none
  editor_layer_visibility := none
  part_group_name := none

/-- the value the reader starts from, /repo/src/vpx/gameitem/lightsequencer.rs:125-188 -/
def LightSequencer.init : LightSequencer := LightSequencer.default

/-- the `timer` field, /repo/src/vpx/gameitem/lightsequencer.rs:20 -/
def LightSequencer.timerL : Lens LightSequencer TimerData := ⟨fun s => s.timer, fun t s => { s with timer := t }⟩

/-- match arms of `LightSequencer::biff_read`, /repo/src/vpx/gameitem/lightsequencer.rs:125-188 -/
def LightSequencer.arms : Handlers LightSequencer :=
  [(tag!"VCEN", fld getVertex2D fun v s => { s with center := v }),
   (tag!"COLC", fld getWide fun v s => { s with collection := v }),
   (tag!"CTRX", fld getF32 fun v s => { s with pos_x := v }),
   (tag!"CTRY", fld getF32 fun v s => { s with pos_y := v }),
   (tag!"UPTM", fld getU32 fun v s => { s with update_interval := v }),
   (tag!"NAME", fld getWide fun v s => { s with name := v }),
   (tag!"BGLS", fld getBool fun v s => { s with backglass := v }),
   (tag!"LOCK", fld getBool fun v s => { s with is_locked := some v }),
   (tag!"LAYR", fld getU32 fun v s => { s with editor_layer := some v }),
   (tag!"LANR", fld getString fun v s => { s with editor_layer_name := some v }),
   (tag!"LVIS", fld getBool fun v s => { s with editor_layer_visibility := some v }),
   (tag!"GRUP", fld getString fun v s => { s with part_group_name := some v })] ++
  timerArms LightSequencer.timerL

/-- `LightSequencer::biff_read`, /repo/src/vpx/gameitem/lightsequencer.rs:125-188 -/
def LightSequencer.read (data : Bytes) : Res LightSequencer := readStruct LightSequencer.arms LightSequencer.init data

/-- calls made by `LightSequencer::biff_write` before `close(true)`, /repo/src/vpx/gameitem/lightsequencer.rs:190-221 -/
def LightSequencer.ops (s : LightSequencer) : List WOp := List.flatten [
  [wVertex2D tag!"VCEN" s.center],
  [wWide tag!"COLC" s.collection],
  [wF32 tag!"CTRX" s.pos_x],
  [wF32 tag!"CTRY" s.pos_y],
  [wU32 tag!"UPTM" s.update_interval],
  s.timer.ops,
  [wWide tag!"NAME" s.name],
  [wBool tag!"BGLS" s.backglass],
  opt (wBool tag!"LOCK") s.is_locked,
  opt (wString tag!"GRUP") s.part_group_name,
  opt (wU32 tag!"LAYR") s.editor_layer,
  opt (wString tag!"LANR") s.editor_layer_name,
  opt (wBool tag!"LVIS") s.editor_layer_visibility]

/-- `LightSequencer::biff_write`, /repo/src/vpx/gameitem/lightsequencer.rs:190-221 -/
def LightSequencer.write (s : LightSequencer) : Res Bytes := writeBiff s.ops

end Vpin
