import Verif.Model.Common
import Verif.Model.Color
import Verif.Model.Enums
import Verif.Model.Quantize
/-
/repo/src/vpx/material.rs
-/
namespace Vpin

/-! ## Modern materials -/

/-- `get_i32().into()`, /repo/src/vpx/material.rs:690 -/
def getEnumI {α : Type} (ofI32 : Int32 → Res α) : R α := do
  let n ← getI32
  R.ofRes (ofI32 n)

/-- `write_tagged_i32(tag, (&v).into())`, /repo/src/vpx/material.rs:724 -/
def wEnumI {α : Type} (toI32 : α → Int32) (t : Tag) (v : α) : WOp := wI32 t (toI32 v)

/-- `Material`, /repo/src/vpx/material.rs:461-532 -/
structure Material where
  name : Str
  type_ : MaterialType
  wrap_lighting : F32
  roughness : F32
  glossy_image_lerp : F32
  thickness : F32
  edge : F32
  edge_alpha : F32
  opacity : F32
  base_color : Color
  glossy_color : Color
  clearcoat_color : Color
  opacity_active : Bool
  elasticity : F32
  elasticity_falloff : F32
  friction : F32
  scatter_angle : F32
  refraction_tint : Color
  deriving DecidableEq, Repr

/-- `Material::default`, /repo/src/vpx/material.rs:604-627 (floats as bit patterns) -/
def Material.default : Material where
  name := "dummyMaterial".toList
  type_ := .Basic
  wrap_lighting := 0
  roughness := 0
  glossy_image_lerp := 0x3f800000
  thickness := 0x3d4ccccd
  edge := 0x3f800000
  edge_alpha := 0x3f800000
  opacity := 0x3f800000
  base_color := Color.fromRgb 0xB469FF
  glossy_color := Color.rgb 0 0 0
  clearcoat_color := Color.rgb 0 0 0
  opacity_active := false
  elasticity := 0
  elasticity_falloff := 0
  friction := 0
  scatter_angle := 0
  refraction_tint := Color.rgb 255 255 255

/-- match arms of `Material::biff_read`, /repo/src/vpx/material.rs:679-720 -/
def Material.arms : Handlers Material :=
  [(tag!"TYPE", fld (getEnumI MaterialType.ofI32) fun v s => { s with type_ := v }),
   (tag!"NAME", fld getString fun v s => { s with name := v }),
   (tag!"WLIG", fld getF32 fun v s => { s with wrap_lighting := v }),
   (tag!"ROUG", fld getF32 fun v s => { s with roughness := v }),
   (tag!"GIML", fld getF32 fun v s => { s with glossy_image_lerp := v }),
   (tag!"THCK", fld getF32 fun v s => { s with thickness := v }),
   (tag!"EDGE", fld getF32 fun v s => { s with edge := v }),
   (tag!"EALP", fld getF32 fun v s => { s with edge_alpha := v }),
   (tag!"OPAC", fld getF32 fun v s => { s with opacity := v }),
   (tag!"BASE", fld getColor fun v s => { s with base_color := v }),
   (tag!"GLOS", fld getColor fun v s => { s with glossy_color := v }),
   (tag!"COAT", fld getColor fun v s => { s with clearcoat_color := v }),
   (tag!"RTNT", fld getColor fun v s => { s with refraction_tint := v }),
   (tag!"EOPA", fld getBool fun v s => { s with opacity_active := v }),
   (tag!"ELAS", fld getF32 fun v s => { s with elasticity := v }),
   (tag!"ELFO", fld getF32 fun v s => { s with elasticity_falloff := v }),
   (tag!"FRIC", fld getF32 fun v s => { s with friction := v }),
   (tag!"SCAT", fld getF32 fun v s => { s with scatter_angle := v })]

/-- `Material::biff_read` on a new reader, /repo/src/vpx/material.rs:679-720 -/
def Material.read (data : Bytes) : Res Material := readStruct Material.arms Material.default data

/-- calls made by `Material::biff_write` before `close(true)`, /repo/src/vpx/material.rs:722-744 -/
def Material.ops (s : Material) : List WOp := List.flatten [
  [wEnumI MaterialType.toI32 tag!"TYPE" s.type_],
  [wString tag!"NAME" s.name],
  [wF32 tag!"WLIG" s.wrap_lighting],
  [wF32 tag!"ROUG" s.roughness],
  [wF32 tag!"GIML" s.glossy_image_lerp],
  [wF32 tag!"THCK" s.thickness],
  [wF32 tag!"EDGE" s.edge],
  [wF32 tag!"EALP" s.edge_alpha],
  [wF32 tag!"OPAC" s.opacity],
  [wColor tag!"BASE" s.base_color],
  [wColor tag!"GLOS" s.glossy_color],
  [wColor tag!"COAT" s.clearcoat_color],
  [wColor tag!"RTNT" s.refraction_tint],
  [wBool tag!"EOPA" s.opacity_active],
  [wF32 tag!"ELAS" s.elasticity],
  [wF32 tag!"ELFO" s.elasticity_falloff],
  [wF32 tag!"FRIC" s.friction],
  [wF32 tag!"SCAT" s.scatter_angle]]

/-- `Material::biff_write` on a new writer, /repo/src/vpx/material.rs:722-744 -/
def Material.write (s : Material) : Res Bytes := writeBiff s.ops

/-! ## Legacy fixed-size records

`BytesMut` is a byte list that is consumed from the front; every `get_*`, `advance` and
`copy_to_bytes` panics when there is not enough data (crate `bytes`). -/

/-- reading from a `BytesMut` (used in /repo/src/vpx/material.rs:266-306) -/
abbrev BM (α : Type) := StateT Bytes (Except Err) α

/-- `copy_to_bytes(n)`, `advance(n)` (crate `bytes`) (used in /repo/src/vpx/material.rs:444-450) -/
def bmTake (n : Nat) : BM Bytes := fun bs =>
  if n ≤ bs.length then .ok (bs.take n, bs.drop n) else .error .panic

/-- `get_u32_le` and `get_f32_le` (bit pattern) (crate `bytes`) (used in /repo/src/vpx/material.rs:266-306) -/
def bmU32 : BM UInt32 := do return ofLe32 (← bmTake 4)

/-- `get_u8` (crate `bytes`) (used in /repo/src/vpx/material.rs:266-306) -/
def bmU8 : BM UInt8 := do return UInt8.ofNat (leNat (← bmTake 1))

/-- `MAX_NAME_BUFFER`, /repo/src/vpx/material.rs:13 -/
def maxNameBuffer : Nat := 32

/-- `write_padded_cstring_truncate`, /repo/src/vpx/material.rs:428-438 -/
def paddedCstring (s : Str) : Res Bytes :=
  match encodeLatin1 s with
  | .error e => .error e
  | .ok d =>
    let d := d.take (maxNameBuffer - 1)
    .ok (d ++ [0] ++ List.replicate (maxNameBuffer - d.length - 1) 0)

/-- `read_padded_cstring(..).unwrap()`, /repo/src/vpx/material.rs:444-450: the bytes before the
first NUL, a panic if there is none -/
def bmPaddedCstring : BM Str := do
  let d ← bmTake maxNameBuffer
  if 0 ∈ d then return decodeLatin1 (cutNul d) else fun _ => .error .panic

/-- `SaveMaterial`, /repo/src/vpx/material.rs:99-150 -/
structure SaveMaterial where
  name : Str
  base_color : Color
  glossy_color : Color
  clearcoat_color : Color
  wrap_lighting : F32
  is_metal : Bool
  roughness : F32
  glossy_image_lerp : UInt8
  edge : F32
  thickness : UInt8
  opacity : F32
  opacity_active_edge_alpha : UInt8
  deriving DecidableEq, Repr

/-- `SaveMaterial::read`, /repo/src/vpx/material.rs:267-306 (the three padding bytes after each
`u8` are skipped) -/
def bmSaveMaterial : BM SaveMaterial := do
  let name ← bmPaddedCstring
  let base_color ← bmU32
  let glossy_color ← bmU32
  let clearcoat_color ← bmU32
  let wrap_lighting ← bmU32
  let is_metal ← bmU8
  let _ ← bmTake 3
  let roughness ← bmU32
  let glossy_image_lerp ← bmU8
  let _ ← bmTake 3
  let edge ← bmU32
  let thickness ← bmU8
  let _ ← bmTake 3
  let opacity ← bmU32
  let opacity_active_edge_alpha ← bmU8
  let _ ← bmTake 3
  return { name, base_color := Color.fromWinColor base_color,
           glossy_color := Color.fromWinColor glossy_color,
           clearcoat_color := Color.fromWinColor clearcoat_color, wrap_lighting,
           is_metal := is_metal != 0, roughness, glossy_image_lerp, edge, thickness, opacity,
           opacity_active_edge_alpha }

/-- `SaveMaterial::write`, /repo/src/vpx/material.rs:308-333 -/
def SaveMaterial.bytes (s : SaveMaterial) : Res Bytes :=
  match paddedCstring s.name with
  | .error e => .error e
  | .ok n => .ok (n ++ (le32 s.base_color.toWinColor ++ (le32 s.glossy_color.toWinColor ++
      (le32 s.clearcoat_color.toWinColor ++ (le32 s.wrap_lighting ++
      ([if s.is_metal then 1 else 0] ++ ([0, 0, 0] ++ (le32 s.roughness ++
      ([s.glossy_image_lerp] ++ ([0, 0, 0] ++ (le32 s.edge ++ ([s.thickness] ++ ([0, 0, 0] ++
      (le32 s.opacity ++ ([s.opacity_active_edge_alpha] ++ [0, 0, 0])))))))))))))))

/-- `SavePhysicsMaterial`, /repo/src/vpx/material.rs:341-347 -/
structure SavePhysicsMaterial where
  name : Str
  elasticity : F32
  elasticity_falloff : F32
  friction : F32
  scatter_angle : F32
  deriving DecidableEq, Repr

/-- `SavePhysicsMaterial::read`, /repo/src/vpx/material.rs:392-411 -/
def bmSavePhysicsMaterial : BM SavePhysicsMaterial := do
  let name ← bmPaddedCstring
  let elasticity ← bmU32
  let elasticity_falloff ← bmU32
  let friction ← bmU32
  let scatter_angle ← bmU32
  return { name, elasticity, elasticity_falloff, friction, scatter_angle }

/-- `SavePhysicsMaterial::write`, /repo/src/vpx/material.rs:413-420 -/
def SavePhysicsMaterial.bytes (s : SavePhysicsMaterial) : Res Bytes :=
  match paddedCstring s.name with
  | .error e => .error e
  | .ok n => .ok (n ++ (le32 s.elasticity ++ (le32 s.elasticity_falloff ++ (le32 s.friction ++
      le32 s.scatter_angle))))

/-- `for _ in 0..n { list.push(T::read(&mut buff)) }`, /repo/src/vpx/gamedata.rs:2243-2246 -/
def bmList {α : Type} (g : BM α) : Nat → BM (List α)
  | 0 => pure []
  | n + 1 => do
    let a ← g
    let as ← bmList g n
    return a :: as

/-- `for mat in list { mat.write(&mut bytes) }`, /repo/src/vpx/gamedata.rs:2030-2033 -/
def bytesList {α : Type} (f : α → Res Bytes) : List α → Res Bytes
  | [] => .ok []
  | a :: as =>
    match f a, bytesList f as with
    | .ok x, .ok y => .ok (x ++ y)
    | _, _ => .error .panic

/-! ### From modern to legacy -/

/-- `f32::clamp(lo, hi)` (std) for bounds `0 ≤ lo ≤ hi < ∞` given as bit patterns: NaN stays (used in
/repo/src/vpx/material.rs:154-213) -/
def f32Clamp (lo hi x : F32) : F32 :=
  if x.isNaN then x
  else if x.isNeg then (if x.mag = 0 ∧ lo = 0 then x else lo)
  else if x < lo then lo
  else if x > hi then hi
  else x

/-- `From<&Material> for SaveMaterial`, /repo/src/vpx/material.rs:155-211 -/
def SaveMaterial.ofMaterial (m : Material) : Res SaveMaterial :=
  match quantizeU8 8 (f32Clamp 0 f32One m.glossy_image_lerp),
        quantizeU8 8 (f32Clamp 0x3d4ccccd f32One m.thickness),
        quantizeU8 7 (f32Clamp 0 f32One m.edge_alpha) with
  | .ok g, .ok t, .ok e => .ok {
      name := m.name
      base_color := m.base_color
      glossy_color := m.glossy_color
      clearcoat_color := m.clearcoat_color
      wrap_lighting := m.wrap_lighting
      is_metal := m.type_ == .Metal
      roughness := m.roughness
      glossy_image_lerp := 255 - g
      edge := m.edge
      thickness := t
      opacity := m.opacity
      opacity_active_edge_alpha := (if m.opacity_active then (1 : UInt8) else 0) ||| (e <<< 1) }
  | _, _, _ => .error .panic

/-- `From<&Material> for SavePhysicsMaterial`, /repo/src/vpx/material.rs:349-359 -/
def SavePhysicsMaterial.ofMaterial (m : Material) : SavePhysicsMaterial where
  name := m.name
  elasticity := m.elasticity
  elasticity_falloff := m.elasticity_falloff
  friction := m.friction
  scatter_angle := m.scatter_angle

end Vpin
