import Verif.Model.Common
import Verif.Model.Enums
/-
`Decal`, /repo/src/vpx/gameitem/decal.rs
Generated by tools/gen_items.py from the source; each definition cites what it models.
-/
namespace Vpin


/-- `struct Decal`, /repo/src/vpx/gameitem/decal.rs:166-197
The five shared fields are grouped in `shared` (see `SharedAttrs`). -/
structure Decal where
  center : Vertex2D
  width : F32
  height : F32
  rotation : F32
  image : Str
  surface : Str
  name : Str
  text : Str
  decal_type : DecalType
  material : Str
  color : Color
  sizing_type : SizingType
  vertical_text : Bool
  backglass : Bool
  font : Font
  shared : SharedAttrs
  deriving DecidableEq, Repr

/-- `Decal::default`, /repo/src/vpx/gameitem/decal.rs:273-298 (floating point values as bit patterns) -/
def Decal.default : Decal where
  center := Vertex2D.default
  width := 0x42c80000
  height := 0x42c80000
  rotation := 0
  image := []
  surface := []
  name := []
  text := []
  decal_type := .Image
  material := []
  color := Color.rgb 0 0 0
  sizing_type := .ManualSize
  vertical_text := false
  backglass := false
  font := Font.default
  shared := SharedAttrs.default

/-- the value the reader starts from, /repo/src/vpx/gameitem/decal.rs:325-396 -/
def Decal.init : Decal := Decal.default

/-- the shared fields, /repo/src/vpx/gameitem/decal.rs:190 -/
def Decal.sharedL : Lens Decal SharedAttrs := ⟨fun s => s.shared, fun a s => { s with shared := a }⟩

/-- match arms of `Decal::biff_read`, /repo/src/vpx/gameitem/decal.rs:325-396 -/
def Decal.arms : Handlers Decal :=
  [(tag!"VCEN", fld getVertex2D fun v s => { s with center := v }),
   (tag!"WDTH", fld getF32 fun v s => { s with width := v }),
   (tag!"HIGH", fld getF32 fun v s => { s with height := v }),
   (tag!"ROTA", fld getF32 fun v s => { s with rotation := v }),
   (tag!"IMAG", fld getString fun v s => { s with image := v }),
   (tag!"SURF", fld getString fun v s => { s with surface := v }),
   (tag!"NAME", fld getWide fun v s => { s with name := v }),
   (tag!"TEXT", fld getString fun v s => { s with text := v }),
   (tag!"TYPE", fld (getEnum DecalType.ofU32) fun v s => { s with decal_type := v }),
   (tag!"MATR", fld getString fun v s => { s with material := v }),
   (tag!"COLR", fld getColor fun v s => { s with color := v }),
   (tag!"SIZE", fld (getEnum SizingType.ofU32) fun v s => { s with sizing_type := v }),
   (tag!"VERT", fld getBool fun v s => { s with vertical_text := v }),
   (tag!"BGLS", fld getBool fun v s => { s with backglass := v }),
   (tag!"FONT", fld getFont fun v s => { s with font := v })] ++
  sharedArms Decal.sharedL

/-- `Decal::biff_read`, /repo/src/vpx/gameitem/decal.rs:325-396 -/
def Decal.read (data : Bytes) : Res Decal := readStruct Decal.arms Decal.init data

/-- calls made by `Decal::biff_write` before `close(true)`, /repo/src/vpx/gameitem/decal.rs:398-421 -/
def Decal.ops (s : Decal) : List WOp := List.flatten [
  [wVertex2D tag!"VCEN" s.center],
  [wF32 tag!"WDTH" s.width],
  [wF32 tag!"HIGH" s.height],
  [wF32 tag!"ROTA" s.rotation],
  [wString tag!"IMAG" s.image],
  [wString tag!"SURF" s.surface],
  [wWide tag!"NAME" s.name],
  [wString tag!"TEXT" s.text],
  [wEnum DecalType.toU32 tag!"TYPE" s.decal_type],
  [wString tag!"MATR" s.material],
  [wColor tag!"COLR" s.color],
  [wEnum SizingType.toU32 tag!"SIZE" s.sizing_type],
  [wBool tag!"VERT" s.vertical_text],
  [wBool tag!"BGLS" s.backglass],
  s.shared.ops,
  [wFont tag!"FONT" s.font]]

/-- `Decal::biff_write`, /repo/src/vpx/gameitem/decal.rs:398-421 -/
def Decal.write (s : Decal) : Res Bytes := writeBiff s.ops

end Vpin
