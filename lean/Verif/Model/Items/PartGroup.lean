import Verif.Model.Common
import Verif.Model.Enums
/-
`PartGroup`, /repo/src/vpx/gameitem/partgroup.rs
Generated by tools/gen_items.py from the source; each definition cites what it models.
-/
namespace Vpin


/-- `struct PartGroup`, /repo/src/vpx/gameitem/partgroup.rs:129-146 -/
structure PartGroup where
  name : Str
  center : Vertex2D
  timer : TimerData
  backglass : Bool
  visibility_mask : Option UInt32
  space_reference : SpaceReference
  player_mode_visibility_mask : Option UInt32
  is_locked : Bool
  editor_layer_name : Option Str
  editor_layer_visibility : Option Bool
  deriving DecidableEq, Repr

/-- `PartGroup::default`, /repo/src/vpx/gameitem/partgroup.rs:148-163 (floating point values as bit patterns) -/
def PartGroup.default : PartGroup where
  name := []
  center := Vertex2D.default
  timer := TimerData.default
  backglass := false
  visibility_mask := none
  space_reference := .Inherit
  player_mode_visibility_mask := none
  is_locked := false
  editor_layer_name := none
  editor_layer_visibility := none

/-- the value the reader starts from, /repo/src/vpx/gameitem/partgroup.rs:235-290 -/
def PartGroup.init : PartGroup := PartGroup.default

/-- the `timer` field, /repo/src/vpx/gameitem/partgroup.rs:133 -/
def PartGroup.timerL : Lens PartGroup TimerData := ⟨fun s => s.timer, fun t s => { s with timer := t }⟩

/-- match arms of `PartGroup::biff_read`, /repo/src/vpx/gameitem/partgroup.rs:235-290 -/
def PartGroup.arms : Handlers PartGroup :=
  [(tag!"NAME", fld getWide fun v s => { s with name := v }),
   (tag!"VCEN", fld getVertex2D fun v s => { s with center := v }),
   (tag!"BGLS", fld getBool fun v s => { s with backglass := v }),
   (tag!"VMSK", fld getU32 fun v s => { s with visibility_mask := some v }),
   (tag!"SPRF", fld (getEnum SpaceReference.ofU32) fun v s => { s with space_reference := v }),
   (tag!"PMSK", fld getU32 fun v s => { s with player_mode_visibility_mask := some v }),
   (tag!"LOCK", fld getBool fun v s => { s with is_locked := v }),
   (tag!"LANR", fld getString fun v s => { s with editor_layer_name := some v }),
   (tag!"LVIS", fld getBool fun v s => { s with editor_layer_visibility := some v })] ++
  timerArms PartGroup.timerL

/-- `PartGroup::biff_read`, /repo/src/vpx/gameitem/partgroup.rs:235-290 -/
def PartGroup.read (data : Bytes) : Res PartGroup := readStruct PartGroup.arms PartGroup.init data

/-- calls made by `PartGroup::biff_write` before `close(true)`, /repo/src/vpx/gameitem/partgroup.rs:292-317 -/
def PartGroup.ops (s : PartGroup) : List WOp := List.flatten [
  [wWide tag!"NAME" s.name],
  [wVertex2D tag!"VCEN" s.center],
  s.timer.ops,
  [wBool tag!"BGLS" s.backglass],
  opt (wU32 tag!"VMSK") s.visibility_mask,
  opt (wU32 tag!"PMSK") s.player_mode_visibility_mask,
  [wEnum SpaceReference.toU32 tag!"SPRF" s.space_reference],
  [wBool tag!"LOCK" s.is_locked],
  opt (wBool tag!"LVIS") s.editor_layer_visibility,
  opt (wString tag!"LANR") s.editor_layer_name]

/-- `PartGroup::biff_write`, /repo/src/vpx/gameitem/partgroup.rs:292-317 -/
def PartGroup.write (s : PartGroup) : Res Bytes := writeBiff s.ops

end Vpin
