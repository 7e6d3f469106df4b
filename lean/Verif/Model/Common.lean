import Verif.Model.Biff
import Verif.Model.Quantize
/-
Values shared by several game items: vertices, colours, timers, fonts, the attributes every
item has, and drag points.
-/
namespace Vpin

/-- `Vertex2D`, /repo/src/vpx/gameitem/vertex2d.rs:6-9 -/
structure Vertex2D where
  x : F32
  y : F32
  deriving DecidableEq, Repr

/-- `Vertex2D::default`, /repo/src/vpx/gameitem/vertex2d.rs:23-27 -/
def Vertex2D.default : Vertex2D := ⟨0, 0⟩

/-- `Vertex2D::biff_read`, /repo/src/vpx/gameitem/vertex2d.rs:29-35 -/
def getVertex2D : R Vertex2D := do
  let x ← getF32
  let y ← getF32
  return ⟨x, y⟩

/-- `write_tagged` of a `Vertex2D`, /repo/src/vpx/gameitem/vertex2d.rs:37-42 -/
def wVertex2D (t : Tag) (v : Vertex2D) : WOp := .sized t (le32 v.x ++ le32 v.y)

/-- `Vertex3D`, /repo/src/vpx/gameitem/vertex3d.rs:6-10 -/
structure Vertex3D where
  x : F32
  y : F32
  z : F32
  deriving DecidableEq, Repr

/-- `Vertex3D::default`, /repo/src/vpx/gameitem/vertex3d.rs:52-60 -/
def Vertex3D.default : Vertex3D := ⟨0, 0, 0⟩

/-- `Vertex3D::read_unpadded`, /repo/src/vpx/gameitem/vertex3d.rs:23-28 -/
def getVertex3DUnpadded : R Vertex3D := do
  let x ← getF32
  let y ← getF32
  let z ← getF32
  return ⟨x, y, z⟩

/-- `Vertex3D::biff_read` = `read_padded`, /repo/src/vpx/gameitem/vertex3d.rs:37-43, 63-67 -/
def getVertex3D : R Vertex3D := do
  let x ← getF32
  let y ← getF32
  let z ← getF32
  let _padding ← getF32
  return ⟨x, y, z⟩

/-- `write_tagged_with(.., Vertex3D::write_unpadded)` and `write_tagged_unpadded_vector`,
/repo/src/vpx/gameitem/vertex3d.rs:17-21, /repo/src/vpx/biff.rs:735-741 -/
def wVertex3DUnpadded (t : Tag) (v : Vertex3D) : WOp := .sized t (le32 v.x ++ le32 v.y ++ le32 v.z)

/-- `write_tagged` of a `Vertex3D` = `write_padded`,
/repo/src/vpx/gameitem/vertex3d.rs:30-35, 70-74 -/
def wVertex3D (t : Tag) (v : Vertex3D) : WOp :=
  .sized t (le32 v.x ++ le32 v.y ++ le32 v.z ++ le32 0)

/-- `Color`, /repo/src/vpx/color.rs:8-17 -/
structure Color where
  unused : UInt8
  r : UInt8
  g : UInt8
  b : UInt8
  deriving DecidableEq, Repr

/-- `Color::rgb`, /repo/src/vpx/color.rs:136-138 -/
def Color.rgb (r g b : UInt8) : Color := { r, g, b, unused := 0 }

/-- `Color::biff_read`, /repo/src/vpx/color.rs:140-150 -/
def getColor : R Color := do
  let r ← getU8
  let g ← getU8
  let b ← getU8
  let unused ← getU8
  return { r, g, b, unused }

/-- bytes written by `Color::biff_write`, /repo/src/vpx/color.rs:152-158 -/
def Color.bytes (c : Color) : Bytes := [c.r, c.g, c.b, c.unused]

/-- `write_tagged_with(.., Color::biff_write)`, /repo/src/vpx/color.rs:152-158 -/
def wColor (t : Tag) (c : Color) : WOp := .sized t c.bytes

/-- an enumeration field: `reader.get_u32().into()`; the conversion may panic (used in /repo/src/vpx/gameitem/ramp.rs:403) -/
def getEnum {α : Type} (ofU32 : UInt32 → Res α) : R α := do
  let n ← getU32
  R.ofRes (ofU32 n)

/-- `write_tagged_u32(tag, value.into())` (used in /repo/src/vpx/gameitem/ramp.rs:504) -/
def wEnum {α : Type} (toU32 : α → UInt32) (t : Tag) (v : α) : WOp := wU32 t (toU32 v)

/-- `dequantize_unsigned::<8>(reader.get_u32())`, for example
/repo/src/vpx/gameitem/wall.rs:400-401 -/
def getQuant8 : R F32 := do return dequantize8 (← getU32)

/-- `write_tagged_u32(tag, quantize_unsigned::<8>(value))`, for example
/repo/src/vpx/gameitem/wall.rs:500-502; quantising a negative number or NaN panics -/
def wQuant8 (t : Tag) (x : F32) : WOp :=
  match quantize8 x with
  | .ok n => wU32 t n
  | .error _ => .fail

/-! ## Timers and shared attributes -/

/-- access to a part of a structure (used in /repo/src/vpx/gameitem/select.rs:14-40) -/
structure Lens (σ α : Type) where
  get : σ → α
  put : α → σ → σ

/-- update the part in place (used in /repo/src/vpx/gameitem/select.rs:132-156) -/
def Lens.modify {σ α : Type} (L : Lens σ α) (f : α → α) (s : σ) : σ := L.put (f (L.get s)) s

/-- `TimerData`, /repo/src/vpx/gameitem/select.rs:42-65 -/
structure TimerData where
  is_enabled : Bool
  interval : Int32
  deriving DecidableEq, Repr

/-- `#[derive(Default)]` on `TimerData`, /repo/src/vpx/gameitem/select.rs:42 -/
def TimerData.default : TimerData := { is_enabled := false, interval := 0 }

/-- `TimerData::biff_read_tag`, as further match arms of the item that holds the timer,
/repo/src/vpx/gameitem/select.rs:80-92 -/
def timerArms {σ : Type} (L : Lens σ TimerData) : Handlers σ :=
  [(tag!"TMON", fld getBool fun v => L.modify fun t => { t with is_enabled := v }),
   (tag!"TMIN", fld getI32 fun v => L.modify fun t => { t with interval := v })]

/-- `TimerData::biff_write_tmon`, /repo/src/vpx/gameitem/select.rs:101-103 -/
def TimerData.tmonOps (t : TimerData) : List WOp := [wBool tag!"TMON" t.is_enabled]
/-- `TimerData::biff_write_tmin`, /repo/src/vpx/gameitem/select.rs:106-108 -/
def TimerData.tminOps (t : TimerData) : List WOp := [wI32 tag!"TMIN" t.interval]
/-- `TimerData::biff_write`, /repo/src/vpx/gameitem/select.rs:95-98 -/
def TimerData.ops (t : TimerData) : List WOp := t.tmonOps ++ t.tminOps

/-- The attributes every item has, `trait HasSharedAttributes`,
/repo/src/vpx/gameitem/select.rs:14-29. In the Rust structs these are five separate fields
`is_locked`, .., `part_group_name`, accessed through the setters and getters generated by the
macro `impl_shared_attributes!` (/repo/src/vpx/gameitem/select.rs:165-208). The model groups the
fields in one structure; the macro's setters are then the field updates below. -/
structure SharedAttrs where
  is_locked : Bool
  editor_layer : Option UInt32
  editor_layer_name : Option Str
  editor_layer_visibility : Option Bool
  part_group_name : Option Str
  deriving DecidableEq, Repr

/-- `is_locked: false` and `None` for the others, as in the `Default` of every item, for example
/repo/src/vpx/gameitem/bumper.rs:130-165 -/
def SharedAttrs.default : SharedAttrs := ⟨false, none, none, none, none⟩

/-- `read_shared_attribute`, as further match arms,
/repo/src/vpx/gameitem/select.rs:132-156 -/
def sharedArms {σ : Type} (L : Lens σ SharedAttrs) : Handlers σ :=
  [(tag!"LOCK", fld getBool fun v => L.modify fun a => { a with is_locked := v }),
   (tag!"LAYR", fld getU32 fun v => L.modify fun a => { a with editor_layer := some v }),
   (tag!"LANR", fld getString fun v => L.modify fun a => { a with editor_layer_name := some v }),
   (tag!"LVIS", fld getBool fun v => L.modify fun a => { a with editor_layer_visibility := some v }),
   (tag!"GRUP", fld getString fun v => L.modify fun a => { a with part_group_name := some v })]

/-- `write_shared_attributes`, /repo/src/vpx/gameitem/select.rs:116-130 -/
def SharedAttrs.ops (a : SharedAttrs) : List WOp := List.flatten [
  [wBool tag!"LOCK" a.is_locked],
  opt (wU32 tag!"LAYR") a.editor_layer,
  opt (wString tag!"LANR") a.editor_layer_name,
  opt (wString tag!"GRUP") a.part_group_name,
  opt (wBool tag!"LVIS") a.editor_layer_visibility]

/-! ## Fonts of decals and text boxes -/

/-- `HashSet<FontStyle>`: a set of the five styles, by membership,
/repo/src/vpx/gameitem/font.rs:38-46 -/
structure FontStyles where
  normal : Bool
  bold : Bool
  italic : Bool
  underline : Bool
  strikethrough : Bool
  deriving DecidableEq, Repr

/-- `flags_to_styles`, /repo/src/vpx/gameitem/font.rs:57-75 -/
def FontStyles.ofFlags (f : UInt8) : FontStyles where
  normal := f &&& ((1 : UInt8) <<< 0) != 0
  bold := f &&& ((1 : UInt8) <<< 1) != 0
  italic := f &&& ((1 : UInt8) <<< 2) != 0
  underline := f &&& ((1 : UInt8) <<< 3) != 0
  strikethrough := f &&& ((1 : UInt8) <<< 4) != 0

/-- `styles_to_flags`, /repo/src/vpx/gameitem/font.rs:48-56, 77-83. The set iterates in an
unspecified order; or-ing distinct bits does not depend on it. -/
def FontStyles.toFlags (s : FontStyles) : UInt8 :=
  (if s.normal then (1 : UInt8) <<< 0 else 0) ||| (if s.bold then (1 : UInt8) <<< 1 else 0) |||
  (if s.italic then (1 : UInt8) <<< 2 else 0) ||| (if s.underline then (1 : UInt8) <<< 3 else 0) |||
  (if s.strikethrough then (1 : UInt8) <<< 4 else 0)

/-- `Font`, /repo/src/vpx/gameitem/font.rs:113-133 -/
structure Font where
  charset : UInt16
  style : FontStyles
  weight : UInt16
  size : UInt32
  name : Str
  deriving DecidableEq, Repr

/-- `Font::default`, /repo/src/vpx/gameitem/font.rs:188-199 -/
def Font.default : Font where
  charset := 0
  style := ⟨false, false, false, false, false⟩
  weight := 0
  size := 400
  name := "Arial".toList

/-- `Font::biff_read`, /repo/src/vpx/gameitem/font.rs:201-219 -/
def getFont : R Font := do
  let version ← getU8N
  if version ≠ 1 then R.panic
  let charset ← getU16N
  let style ← getU8N
  let weight ← getU16N
  let size ← getU32N
  let name_len ← getU8N
  let name ← getStrN name_len.toNat
  return { charset, style := FontStyles.ofFlags style, weight, size, name }

/-- payload of `Font::biff_write`, /repo/src/vpx/gameitem/font.rs:221-231 -/
def Font.payload (f : Font) : Res Bytes :=
  match pShortString f.name with
  | .error e => .error e
  | .ok n => .ok ([1] ++ le16 f.charset ++ [f.style.toFlags] ++ le16 f.weight ++ le32 f.size ++ n)

/-- `write_tagged_without_size("FONT", &self.font)`, /repo/src/vpx/biff.rs:761-765 -/
def wFont (t : Tag) (f : Font) : WOp := .unsizedR t f.payload

/-- The record of a script: `get_u32_no_remaining_update` for the length, then
`get_str_with_encoding_no_remaining_update`, /repo/src/vpx/gamedata.rs:2309-2313 -/
def getCode : R StringWithEncoding := do
  let n ← getU32N
  getStrEncN n.toNat

end Vpin
