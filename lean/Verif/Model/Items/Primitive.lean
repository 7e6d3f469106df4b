import Verif.Model.Common
import Verif.Model.Enums
/-
`Primitive`, /repo/src/vpx/gameitem/primitive.rs
Generated by tools/gen_items.py from the source; each definition cites what it models.
-/
namespace Vpin


/-- `struct Primitive`, /repo/src/vpx/gameitem/primitive.rs:28-397
The five shared fields are grouped in `shared` (see `SharedAttrs`).
The array `rot_and_tra: [f32; 9]` is nine fields. -/
structure Primitive where
  name : Str
  position : Vertex3D
  size : Vertex3D
  rot_and_tra0 : F32
  rot_and_tra1 : F32
  rot_and_tra2 : F32
  rot_and_tra3 : F32
  rot_and_tra4 : F32
  rot_and_tra5 : F32
  rot_and_tra6 : F32
  rot_and_tra7 : F32
  rot_and_tra8 : F32
  image : Str
  normal_map : Option Str
  sides : UInt32
  material : Str
  side_color : Color
  is_visible : Bool
  draw_textures_inside : Bool
  hit_event : Bool
  threshold : F32
  elasticity : F32
  elasticity_falloff : F32
  friction : F32
  scatter : F32
  edge_factor_ui : F32
  collision_reduction_factor : Option F32
  is_collidable : Bool
  is_toy : Bool
  use_3d_mesh : Bool
  static_rendering : Bool
  disable_lighting_top_old : Option F32
  disable_lighting_top : Option F32
  disable_lighting_below : Option F32
  is_reflection_enabled : Option Bool
  backfaces_enabled : Option Bool
  physics_material : Option Str
  overwrite_physics : Option Bool
  display_texture : Option Bool
  object_space_normal_map : Option Bool
  min_aa_bound : Option Vertex3D
  max_aa_bound : Option Vertex3D
  mesh_file_name : Option Str
  num_vertices : Option UInt32
  compressed_vertices_len : Option UInt32
  compressed_vertices_data : Option Bytes
  num_indices : Option UInt32
  compressed_indices_len : Option UInt32
  compressed_indices_data : Option Bytes
  compressed_animation_vertices_len : Option (List UInt32)
  compressed_animation_vertices_data : Option (List Bytes)
  depth_bias : F32
  add_blend : Option Bool
  use_depth_mask : Option Bool
  alpha : Option F32
  color : Option Color
  light_map : Option Str
  reflection_probe : Option Str
  reflection_strength : Option F32
  refraction_probe : Option Str
  refraction_thickness : Option F32
  shared : SharedAttrs
  deriving DecidableEq, Repr

/-- `Primitive::default`, /repo/src/vpx/gameitem/primitive.rs:400-463 (floating point values as bit patterns) -/
def Primitive.default : Primitive where
  name := []
  position := Vertex3D.default
  size := ⟨0x42c80000, 0x42c80000, 0x42c80000⟩
  rot_and_tra0 := 0
  rot_and_tra1 := 0
  rot_and_tra2 := 0
  rot_and_tra3 := 0
  rot_and_tra4 := 0
  rot_and_tra5 := 0
  rot_and_tra6 := 0
  rot_and_tra7 := 0
  rot_and_tra8 := 0
  image := []
  normal_map := none
  sides := 4
  material := []
  side_color := Color.rgb 0 0 0
  is_visible := true
  draw_textures_inside := false
  hit_event := true
  threshold := 0x40000000
  elasticity := 0x3e99999a
  elasticity_falloff := 0x3f000000
  friction := 0x3e99999a
  scatter := 0
  edge_factor_ui := 0x3e800000
  collision_reduction_factor := none
  is_collidable := true
  is_toy := false
  use_3d_mesh := false
  static_rendering := false
  disable_lighting_top_old := none
  disable_lighting_top := none
  disable_lighting_below := none
  is_reflection_enabled := none
  backfaces_enabled := none
  physics_material := none
  overwrite_physics := none
  display_texture := none
  object_space_normal_map := none
  min_aa_bound := none
  max_aa_bound := none
  mesh_file_name := none
  num_vertices := none
  compressed_vertices_len := none
  compressed_vertices_data := none
  num_indices := none
  compressed_indices_len := none
  compressed_indices_data := none
  compressed_animation_vertices_len := none
  compressed_animation_vertices_data := none
  depth_bias := 0
  add_blend := none
  use_depth_mask := none
  alpha := none
  color := none
  light_map := none
  reflection_probe := none
  reflection_strength := none
  refraction_probe := none
  refraction_thickness := none
  shared := SharedAttrs.default

/-- the value the reader starts from, /repo/src/vpx/gameitem/primitive.rs:754-995 -/
def Primitive.init : Primitive := Primitive.default

/-- the shared fields, /repo/src/vpx/gameitem/primitive.rs:389 -/
def Primitive.sharedL : Lens Primitive SharedAttrs := ⟨fun s => s.shared, fun a s => { s with shared := a }⟩

/-- match arms of `Primitive::biff_read`, /repo/src/vpx/gameitem/primitive.rs:754-995
The lists collected for M3AY and M3AX in local variables and stored in the structure after
the loop are collected in the structure. -/
def Primitive.arms : Handlers Primitive :=
  [(tag!"VPOS", fld getVertex3D fun v s => { s with position := v }),
   (tag!"VSIZ", fld getVertex3D fun v s => { s with size := v }),
   (tag!"RTV0", fld getF32 fun v s => { s with rot_and_tra0 := v }),
   (tag!"RTV1", fld getF32 fun v s => { s with rot_and_tra1 := v }),
   (tag!"RTV2", fld getF32 fun v s => { s with rot_and_tra2 := v }),
   (tag!"RTV3", fld getF32 fun v s => { s with rot_and_tra3 := v }),
   (tag!"RTV4", fld getF32 fun v s => { s with rot_and_tra4 := v }),
   (tag!"RTV5", fld getF32 fun v s => { s with rot_and_tra5 := v }),
   (tag!"RTV6", fld getF32 fun v s => { s with rot_and_tra6 := v }),
   (tag!"RTV7", fld getF32 fun v s => { s with rot_and_tra7 := v }),
   (tag!"RTV8", fld getF32 fun v s => { s with rot_and_tra8 := v }),
   (tag!"IMAG", fld getString fun v s => { s with image := v }),
   (tag!"NRMA", fld getString fun v s => { s with normal_map := some v }),
   (tag!"SIDS", fld getU32 fun v s => { s with sides := v }),
   (tag!"NAME", fld getWide fun v s => { s with name := v }),
   (tag!"MATR", fld getString fun v s => { s with material := v }),
   (tag!"SCOL", fld getColor fun v s => { s with side_color := v }),
   (tag!"TVIS", fld getBool fun v s => { s with is_visible := v }),
   (tag!"DTXI", fld getBool fun v s => { s with draw_textures_inside := v }),
   (tag!"HTEV", fld getBool fun v s => { s with hit_event := v }),
   (tag!"THRS", fld getF32 fun v s => { s with threshold := v }),
   (tag!"ELAS", fld getF32 fun v s => { s with elasticity := v }),
   (tag!"ELFO", fld getF32 fun v s => { s with elasticity_falloff := v }),
   (tag!"RFCT", fld getF32 fun v s => { s with friction := v }),
   (tag!"RSCT", fld getF32 fun v s => { s with scatter := v }),
   (tag!"EFUI", fld getF32 fun v s => { s with edge_factor_ui := v }),
   (tag!"CORF", fld getF32 fun v s => { s with collision_reduction_factor := some v }),
   (tag!"CLDR", fld getBool fun v s => { s with is_collidable := v }),
   (tag!"ISTO", fld getBool fun v s => { s with is_toy := v }),
   (tag!"U3DM", fld getBool fun v s => { s with use_3d_mesh := v }),
   (tag!"STRE", fld getBool fun v s => { s with static_rendering := v }),
   (tag!"DILI", fld getQuant8 fun v s => { s with disable_lighting_top_old := some v }),
   (tag!"DILT", fld getF32 fun v s => { s with disable_lighting_top := some v }),
   (tag!"DILB", fld getF32 fun v s => { s with disable_lighting_below := some v }),
   (tag!"REEN", fld getBool fun v s => { s with is_reflection_enabled := some v }),
   (tag!"EBFC", fld getBool fun v s => { s with backfaces_enabled := some v }),
   (tag!"MAPH", fld getString fun v s => { s with physics_material := some v }),
   (tag!"OVPH", fld getBool fun v s => { s with overwrite_physics := some v }),
   (tag!"DIPT", fld getBool fun v s => { s with display_texture := some v }),
   (tag!"OSNM", fld getBool fun v s => { s with object_space_normal_map := some v }),
   (tag!"BMIN", fld getVertex3DUnpadded fun v s => { s with min_aa_bound := some v }),
   (tag!"BMAX", fld getVertex3DUnpadded fun v s => { s with max_aa_bound := some v }),
   (tag!"M3DN", fld getString fun v s => { s with mesh_file_name := some v }),
   (tag!"M3VN", fld getU32 fun v s => { s with num_vertices := some v }),
   (tag!"M3CY", fld getU32 fun v s => { s with compressed_vertices_len := some v }),
   (tag!"M3CX", fld getRecordData fun v s => { s with compressed_vertices_data := some v }),
   (tag!"M3FN", fld getU32 fun v s => { s with num_indices := some v }),
   (tag!"M3CJ", fld getU32 fun v s => { s with compressed_indices_len := some v }),
   (tag!"M3CI", fld getRecordData fun v s => { s with compressed_indices_data := some v }),
   (tag!"M3AY", fld getU32 fun v s => { s with compressed_animation_vertices_len := some (s.compressed_animation_vertices_len.getD [] ++ [v]) }),
   (tag!"M3AX", fld getRecordData fun v s => { s with compressed_animation_vertices_data := some (s.compressed_animation_vertices_data.getD [] ++ [v]) }),
   (tag!"PIDB", fld getF32 fun v s => { s with depth_bias := v }),
   (tag!"ADDB", fld getBool fun v s => { s with add_blend := some v }),
   (tag!"ZMSK", fld getBool fun v s => { s with use_depth_mask := some v }),
   (tag!"FALP", fld getF32 fun v s => { s with alpha := some v }),
   (tag!"COLR", fld getColor fun v s => { s with color := some v }),
   (tag!"LMAP", fld getString fun v s => { s with light_map := some v }),
   (tag!"REFL", fld getString fun v s => { s with reflection_probe := some v }),
   (tag!"RSTR", fld getF32 fun v s => { s with reflection_strength := some v }),
   (tag!"REFR", fld getString fun v s => { s with refraction_probe := some v }),
   (tag!"RTHI", fld getF32 fun v s => { s with refraction_thickness := some v })] ++
  sharedArms Primitive.sharedL

/-- `Primitive::biff_read`, /repo/src/vpx/gameitem/primitive.rs:754-995 -/
def Primitive.read (data : Bytes) : Res Primitive := readStruct Primitive.arms Primitive.init data

/-- the M3AY and M3AX records, in pairs, /repo/src/vpx/gameitem/primitive.rs:1100-1111 -/
def animOps : Option (List UInt32) → Option (List Bytes) → List WOp
  | some m3ays, some m3axs =>
    (m3ays.zip m3axs).flatMap fun p => [wU32 tag!"M3AY" p.1, wData tag!"M3AX" p.2]
  | _, _ => []

/-- calls made by `Primitive::biff_write` before `close(true)`, /repo/src/vpx/gameitem/primitive.rs:997-1147 -/
def Primitive.ops (s : Primitive) : List WOp := List.flatten [
  [wVertex3D tag!"VPOS" s.position],
  [wVertex3D tag!"VSIZ" s.size],
  [wF32 tag!"RTV0" s.rot_and_tra0],
  [wF32 tag!"RTV1" s.rot_and_tra1],
  [wF32 tag!"RTV2" s.rot_and_tra2],
  [wF32 tag!"RTV3" s.rot_and_tra3],
  [wF32 tag!"RTV4" s.rot_and_tra4],
  [wF32 tag!"RTV5" s.rot_and_tra5],
  [wF32 tag!"RTV6" s.rot_and_tra6],
  [wF32 tag!"RTV7" s.rot_and_tra7],
  [wF32 tag!"RTV8" s.rot_and_tra8],
  [wString tag!"IMAG" s.image],
  opt (wString tag!"NRMA") s.normal_map,
  [wU32 tag!"SIDS" s.sides],
  [wWide tag!"NAME" s.name],
  [wString tag!"MATR" s.material],
  [wColor tag!"SCOL" s.side_color],
  [wBool tag!"TVIS" s.is_visible],
  [wBool tag!"DTXI" s.draw_textures_inside],
  [wBool tag!"HTEV" s.hit_event],
  [wF32 tag!"THRS" s.threshold],
  [wF32 tag!"ELAS" s.elasticity],
  [wF32 tag!"ELFO" s.elasticity_falloff],
  [wF32 tag!"RFCT" s.friction],
  [wF32 tag!"RSCT" s.scatter],
  [wF32 tag!"EFUI" s.edge_factor_ui],
  opt (wF32 tag!"CORF") s.collision_reduction_factor,
  [wBool tag!"CLDR" s.is_collidable],
  [wBool tag!"ISTO" s.is_toy],
  [wBool tag!"U3DM" s.use_3d_mesh],
  [wBool tag!"STRE" s.static_rendering],
  opt (wQuant8 tag!"DILI") s.disable_lighting_top_old,
  opt (wF32 tag!"DILT") s.disable_lighting_top,
  opt (wF32 tag!"DILB") s.disable_lighting_below,
  opt (wBool tag!"REEN") s.is_reflection_enabled,
  opt (wBool tag!"EBFC") s.backfaces_enabled,
  opt (wString tag!"MAPH") s.physics_material,
  opt (wBool tag!"OVPH") s.overwrite_physics,
  opt (wBool tag!"DIPT") s.display_texture,
  opt (wBool tag!"OSNM") s.object_space_normal_map,
  opt (wVertex3DUnpadded tag!"BMIN") s.min_aa_bound,
  opt (wVertex3DUnpadded tag!"BMAX") s.max_aa_bound,
  opt (wString tag!"M3DN") s.mesh_file_name,
  opt (wU32 tag!"M3VN") s.num_vertices,
  opt (wU32 tag!"M3CY") s.compressed_vertices_len,
  opt (wData tag!"M3CX") s.compressed_vertices_data,
  opt (wU32 tag!"M3FN") s.num_indices,
  opt (wU32 tag!"M3CJ") s.compressed_indices_len,
  opt (wData tag!"M3CI") s.compressed_indices_data,
  animOps s.compressed_animation_vertices_len s.compressed_animation_vertices_data,
  [wF32 tag!"PIDB" s.depth_bias],
  opt (wBool tag!"ADDB") s.add_blend,
  opt (wBool tag!"ZMSK") s.use_depth_mask,
  opt (wF32 tag!"FALP") s.alpha,
  opt (wColor tag!"COLR") s.color,
  opt (wString tag!"LMAP") s.light_map,
  opt (wString tag!"REFL") s.reflection_probe,
  opt (wF32 tag!"RSTR") s.reflection_strength,
  opt (wString tag!"REFR") s.refraction_probe,
  opt (wF32 tag!"RTHI") s.refraction_thickness,
  s.shared.ops]

/-- `Primitive::biff_write`, /repo/src/vpx/gameitem/primitive.rs:997-1147 -/
def Primitive.write (s : Primitive) : Res Bytes := writeBiff s.ops

end Vpin
