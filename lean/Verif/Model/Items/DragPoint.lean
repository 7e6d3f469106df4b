import Verif.Model.Common
import Verif.Model.Enums
/-
`DragPoint`, /repo/src/vpx/gameitem/dragpoint.rs
Generated by tools/gen_items.py from the source; each definition cites what it models.
-/
namespace Vpin


/-- `struct DragPoint`, /repo/src/vpx/gameitem/dragpoint.rs:8-34 -/
structure DragPoint where
  x : F32
  y : F32
  z : F32
  smooth : Bool
  is_slingshot : Option Bool
  has_auto_texture : Bool
  tex_coord : F32
  is_locked : Bool
  editor_layer : Option UInt32
  editor_layer_name : Option Str
  editor_layer_visibility : Option Bool
  deriving DecidableEq, Repr

/-- `DragPoint::default`, /repo/src/vpx/gameitem/dragpoint.rs:86-115 (floating point values as bit patterns) -/
def DragPoint.default : DragPoint where
  x := 0
  y := 0
  z := 0
  smooth := false
  is_slingshot := none
  has_auto_texture := false
  tex_coord := 0
  is_locked := false
  editor_layer := none
  editor_layer_name := none
  editor_layer_visibility := none

/-- the value the reader starts from, /repo/src/vpx/gameitem/dragpoint.rs:142-202 -/
def DragPoint.init : DragPoint := DragPoint.default

/-- match arms of `DragPoint::biff_read`, /repo/src/vpx/gameitem/dragpoint.rs:142-202
The two `get_f32` of the VCEN arm are one `getVertex2D`. -/
def DragPoint.arms : Handlers DragPoint :=
  [(tag!"VCEN", fld getVertex2D fun v s => { s with x := v.x, y := v.y }),
   (tag!"POSZ", fld getF32 fun v s => { s with z := v }),
   (tag!"SMTH", fld getBool fun v s => { s with smooth := v }),
   (tag!"SLNG", fld getBool fun v s => { s with is_slingshot := some v }),
   (tag!"ATEX", fld getBool fun v s => { s with has_auto_texture := v }),
   (tag!"TEXC", fld getF32 fun v s => { s with tex_coord := v }),
   (tag!"LOCK", fld getBool fun v s => { s with is_locked := v }),
   (tag!"LAYR", fld getU32 fun v s => { s with editor_layer := some v }),
   (tag!"LANR", fld getString fun v s => { s with editor_layer_name := some v }),
   (tag!"LVIS", fld getBool fun v s => { s with editor_layer_visibility := some v })]

/-- `DragPoint::biff_read`, /repo/src/vpx/gameitem/dragpoint.rs:142-202 -/
def DragPoint.read (data : Bytes) : Res DragPoint := readStruct DragPoint.arms DragPoint.init data

/-- calls made by `DragPoint::biff_write` before `close(true)`, /repo/src/vpx/gameitem/dragpoint.rs:204-232 -/
def DragPoint.ops (s : DragPoint) : List WOp := List.flatten [
  [wVertex2D tag!"VCEN" ⟨s.x, s.y⟩],
  [wF32 tag!"POSZ" s.z],
  [wBool tag!"SMTH" s.smooth],
  opt (wBool tag!"SLNG") s.is_slingshot,
  [wBool tag!"ATEX" s.has_auto_texture],
  [wF32 tag!"TEXC" s.tex_coord],
  [wBool tag!"LOCK" s.is_locked],
  opt (wU32 tag!"LAYR") s.editor_layer,
  opt (wString tag!"LANR") s.editor_layer_name,
  opt (wBool tag!"LVIS") s.editor_layer_visibility]

/-- `DragPoint::biff_write`, /repo/src/vpx/gameitem/dragpoint.rs:204-232 -/
def DragPoint.write (s : DragPoint) : Res Bytes := writeBiff s.ops

end Vpin
