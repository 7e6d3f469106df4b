import Verif.Model.Items.Primitive
import Verif.Model.Items.Light
import Verif.Model.Sound
import Verif.Model.Version
/-
/repo/src/vpx/compat.rs: what the exporters take for the stored values of tables from before 10.8.
-/
namespace Vpin

/-- `is_pre_10_8`, /repo/src/vpx/compat.rs:54-62 -/
def isPre108 (v : Version) : Bool := v.number < 1080

/-- `Primitive::is_playfield`, /repo/src/vpx/gameitem/primitive.rs:601-603 -/
def Primitive.isPlayfield (p : Primitive) : Bool := eqIgnoreAsciiCase p.name "playfield_mesh".toList

/-- `primitive_is_visible`, /repo/src/vpx/compat.rs:73-78 -/
def primitiveIsVisible (p : Primitive) (v : Version) : Bool :=
  if isPre108 v && p.isPlayfield then true else p.is_visible

/-- `primitive_static_rendering`, /repo/src/vpx/compat.rs:84-89 -/
def primitiveStaticRendering (p : Primitive) (v : Version) : Bool :=
  if isPre108 v && p.isPlayfield then true else p.static_rendering

/-- `primitive_depth_bias`, /repo/src/vpx/compat.rs:95-100; 100000.0 as bits -/
def primitiveDepthBias (p : Primitive) (v : Version) : F32 :=
  if isPre108 v && p.isPlayfield then 0x47c35000 else p.depth_bias

/-- `primitive_backfaces_enabled`, /repo/src/vpx/compat.rs:105-110 -/
def primitiveBackfacesEnabled (p : Primitive) (v : Version) : Option Bool :=
  if isPre108 v && p.isPlayfield then some false else p.backfaces_enabled

/-- `primitive_disable_lighting_below`, /repo/src/vpx/compat.rs:122-139; 1.0 as bits (the only float
equal to 1.0) -/
def primitiveDisableLightingBelow (p : Primitive) (material : Option (Bool × F32)) (v : Version) : Option F32 :=
  if isPre108 v then
    if p.isPlayfield then some 0x3f800000
    else
      match material with
      | some (active, opacity) =>
        if !active || opacity == 0x3f800000 then some 0x3f800000 else p.disable_lighting_below
      | none => p.disable_lighting_below
  else p.disable_lighting_below

/-- `light_height`, /repo/src/vpx/compat.rs:149-158 -/
def lightHeight (l : Light) (v : Version) : Option F32 :=
  if isPre108 v then some (if l.is_bulb_light then l.bulb_halo_height else 0) else l.height

/-- `light_show_bulb_mesh`, /repo/src/vpx/compat.rs:164-174 -/
def lightShowBulbMesh (l : Light) (v : Version) : Bool :=
  if isPre108 v then
    if !l.is_bulb_light then false
    else if !l.visible.getD true then false
    else l.show_bulb_mesh
  else l.show_bulb_mesh

/-- `light_show_reflection_on_ball`, /repo/src/vpx/compat.rs:179-184 -/
def lightShowReflectionOnBall (l : Light) (v : Version) : Bool :=
  if isPre108 v && !l.is_bulb_light then false else l.show_reflection_on_ball

/-- `glass_bottom_height`, /repo/src/vpx/compat.rs:197-206 -/
def glassBottomHeight (top : F32) (bottom : Option F32) (v : Version) : F32 :=
  if isPre108 v then top else bottom.getD top

end Vpin
