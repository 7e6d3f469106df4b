import Verif.Model.GltfDoc
import Verif.Model.Matrix
/-
The cameras of the glTF export, /repo/src/vpx/export/camera.rs. The calculations are written for any type of numbers, so
that they can be looked at with real numbers; `f32Camera` are the numbers of the code.
-/
namespace Vpin

/-- what camera.rs does with numbers, besides the operations of `Ops` -/
class CameraOps (α : Type) extends Ops α where
  /-- `tan` -/
  tan : α → α
  /-- `f32::max` -/
  max : α → α → α
  /-- the result of a loop with `f32::max` that begins with minus infinity -/
  greatest : List α → α
  /-- the result of a loop with `f32::min` that begins with infinity -/
  least : List α → α
  half : α
  two : α
  ninety : α
  hundred : α
  /-- `16.0 / 9.0` -/
  aspect : α
  /-- `FIT_CAMERA_DISTANCE_SCALE`, /repo/src/vpx/export/camera.rs:21 -/
  nearer : α
  /-- `VPU_TO_M`, /repo/src/vpx/units.rs:38 -/
  metre : α
  /-- `0.01` -/
  hundredth : α

/-- the numbers of the code, with any function for `tan`; the literals are bit patterns (used in
/repo/src/vpx/export/camera.rs:71) -/
@[instance_reducible] def f32Camera [Arith] (tan : F32 → F32) : CameraOps F32 where
  toOps := inferInstance
  tan := tan
  max := Arith.fmax
  greatest l := l.foldl Arith.fmax fNegInf
  least l := l.foldl Arith.fmin fInf
  half := fHalf
  two := fTwo
  ninety := 0x42b40000
  hundred := 0x42c80000
  aspect := 0x3fe38e39
  nearer := 0x3ef0a3d7
  metre := ExportUnits.m.scale
  hundredth := 0x3c23d70a

/-- `TableBounds`, /repo/src/vpx/export/camera.rs:289-296 -/
structure TableBounds (α : Type) where
  left : α
  top : α
  right : α
  bottom : α
  glass_height : α
  deriving Repr

/-- `ViewMode`, /repo/src/vpx/export/camera.rs:134-141 -/
inductive ViewMode where
  | Desktop
  | Fullscreen
  | Fss
  deriving DecidableEq, Repr

/-- `ViewMode::camera_name`, /repo/src/vpx/export/camera.rs:145-151 -/
def ViewMode.cameraName : ViewMode → Str
  | .Desktop => "DesktopCamera".toList
  | .Fullscreen => "FullscreenCamera".toList
  | .Fss => "FssCamera".toList

/-- `ViewSettings`, /repo/src/vpx/export/camera.rs:159-183, without `scale_z`, which is not used -/
structure ViewSettings (α : Type) where
  mode : ViewMode
  layout_mode : ViewLayoutMode
  fov : α
  inclination : α
  offset_x : α
  offset_y : α
  offset_z : α
  scale_x : α
  scale_y : α
  deriving Repr

/-- `GltfCamera`, /repo/src/vpx/export/camera.rs:331-344, in numbers of any type -/
structure ViewCamera (α : Type) where
  mode : ViewMode
  position : V3 α
  rotation : α × α × α × α
  yfov : α
  znear : α
  zfar : α
  deriving Repr

section
variable {α : Type} [CameraOps α]

local infixl:65 " +ᵒ " => Ops.add
local infixl:65 " -ᵒ " => Ops.sub
local infixl:70 " *ᵒ " => Ops.mul
local infixl:70 " /ᵒ " => Ops.div

/-- `TableBounds::center_x` and `center_y`, /repo/src/vpx/export/camera.rs:319-326 -/
def TableBounds.centerX (b : TableBounds α) : α := (b.left +ᵒ b.right) /ᵒ CameraOps.two
/-- the middle from top to bottom, /repo/src/vpx/export/camera.rs:324-326 -/
def TableBounds.centerY (b : TableBounds α) : α := (b.top +ᵒ b.bottom) /ᵒ CameraOps.two

/-- the corners, /repo/src/vpx/export/camera.rs:87-98 -/
def TableBounds.corners (b : TableBounds α) (height : α) : List (V3 α) :=
  [⟨b.left, b.top, Ops.zero⟩, ⟨b.right, b.top, Ops.zero⟩, ⟨b.left, b.bottom, Ops.zero⟩, ⟨b.right, b.bottom, Ops.zero⟩,
   ⟨b.left, b.top, height⟩, ⟨b.right, b.top, height⟩, ⟨b.left, b.bottom, height⟩, ⟨b.right, b.bottom, height⟩]

/-- a corner as seen by the camera, /repo/src/vpx/export/camera.rs:100-112 -/
def fitCorner (rotation inclination laybackTan : α) (v : V3 α) : V3 α :=
  let vy := v.y +ᵒ laybackTan *ᵒ v.z
  let y := Ops.cos inclination *ᵒ vy -ᵒ Ops.sin inclination *ᵒ v.z
  let z := Ops.sin inclination *ᵒ vy +ᵒ Ops.cos inclination *ᵒ v.z
  ⟨Ops.cos rotation *ᵒ v.x -ᵒ Ops.sin rotation *ᵒ y, Ops.sin rotation *ᵒ v.x +ᵒ Ops.cos rotation *ᵒ y, z⟩

/-- `fit_camera_to_vertices`, /repo/src/vpx/export/camera.rs:55-130. The four loops over the corners are one in the
code. -/
def fitCamera (b : TableBounds α) (aspect rotation inclination fov xlatez layback height : α) : V3 α :=
  let slopey := CameraOps.tan (CameraOps.half *ᵒ Ops.radians fov)
  let slopex := slopey *ᵒ aspect
  let laybackTan := Ops.neg (CameraOps.tan (CameraOps.half *ᵒ Ops.radians layback))
  let vs := (b.corners height).map (fitCorner rotation inclination laybackTan)
  let maxy := CameraOps.greatest (vs.map fun v => v.y +ᵒ slopey *ᵒ v.z)
  let miny := CameraOps.least (vs.map fun v => v.y -ᵒ slopey *ᵒ v.z)
  let maxx := CameraOps.greatest (vs.map fun v => v.x +ᵒ slopex *ᵒ v.z)
  let minx := CameraOps.least (vs.map fun v => v.x -ᵒ slopex *ᵒ v.z)
  let ydist := (maxy -ᵒ miny) /ᵒ (slopey *ᵒ CameraOps.two)
  let xdist := (maxx -ᵒ minx) /ᵒ (slopex *ᵒ CameraOps.two)
  ⟨(maxx +ᵒ minx) *ᵒ CameraOps.half, (maxy +ᵒ miny) *ᵒ CameraOps.half, CameraOps.max ydist xdist +ᵒ xlatez⟩

/-- `euler_to_quaternion_yxz`, /repo/src/vpx/export/camera.rs:649-666 -/
def eulerQuaternion (yaw pitch : α) : α × α × α × α :=
  let hy := yaw /ᵒ CameraOps.two
  let hp := pitch /ᵒ CameraOps.two
  let cy := Ops.cos hy
  let sy := Ops.sin hy
  let cp := Ops.cos hp
  let sp := Ops.sin hp
  (cy *ᵒ sp, sy *ᵒ cp, Ops.neg sy *ᵒ sp, cy *ᵒ cp)

/-- `vpu_to_m`, /repo/src/vpx/units.rs:53-55, of a point, with y and z exchanged, /repo/src/vpx/export/camera.rs:470-475
and 602-607 -/
def cameraPoint (x y z : α) : V3 α := ⟨x *ᵒ CameraOps.metre, z *ᵒ CameraOps.metre, y *ᵒ CameraOps.metre⟩

/-- the angle from the horizontal, /repo/src/vpx/export/camera.rs:378-380 and 500-502 -/
def viewPitch (inclination : α) : α :=
  Ops.radians (CameraOps.ninety *ᵒ (Ops.one -ᵒ inclination /ᵒ CameraOps.hundred))

/-- `GltfCamera::from_view_settings`, /repo/src/vpx/export/camera.rs:360-626 -/
def ViewCamera.of (s : ViewSettings α) (b : TableBounds α) : ViewCamera α :=
  let pitch := viewPitch s.inclination
  let fit := (fitCamera b CameraOps.aspect Ops.zero pitch s.fov Ops.zero Ops.zero b.glass_height).z
  let position :=
    match s.layout_mode with
    | .Legacy =>
      let scale := (s.scale_x +ᵒ s.scale_y) /ᵒ CameraOps.two
      let distance := fit *ᵒ CameraOps.nearer *ᵒ scale
      let baseY := b.centerY +ᵒ distance *ᵒ Ops.cos pitch
      let baseZ := Ops.zero +ᵒ distance *ᵒ Ops.sin pitch
      cameraPoint (b.centerX +ᵒ s.offset_x) (baseY +ᵒ s.offset_y *ᵒ Ops.sin pitch +ᵒ s.offset_z *ᵒ Ops.cos pitch)
        (baseZ +ᵒ s.offset_y *ᵒ Ops.cos pitch +ᵒ s.offset_z *ᵒ Ops.sin pitch)
    | .Camera | .Window =>
      let distance := fit *ᵒ CameraOps.nearer
      let baseY := b.centerY +ᵒ distance *ᵒ Ops.cos pitch
      let baseZ := Ops.zero +ᵒ distance *ᵒ Ops.sin pitch
      cameraPoint (b.centerX +ᵒ s.offset_x) (baseY +ᵒ s.offset_y *ᵒ Ops.cos pitch)
        (baseZ +ᵒ s.offset_y *ᵒ Ops.sin pitch +ᵒ s.offset_z)
  ⟨s.mode, position, eulerQuaternion Ops.zero (Ops.neg pitch), Ops.radians s.fov, CameraOps.hundredth, CameraOps.hundred⟩

end

section
variable [Arith]

/-- `ViewSettings::desktop_from_vpx`, /repo/src/vpx/export/camera.rs:195-211 -/
def desktopSettings (g : GameData) : ViewSettings F32 where
  mode := .Desktop
  layout_mode := g.bg_view_mode_desktop.getD .Legacy
  fov := Arith.fmax g.bg_fov_desktop f32One
  inclination := g.bg_inclination_desktop
  offset_x := g.bg_offset_x_desktop
  offset_y := g.bg_offset_y_desktop
  offset_z := g.bg_offset_z_desktop
  scale_x := g.bg_scale_x_desktop
  scale_y := g.bg_scale_y_desktop

/-- `ViewSettings::fullscreen_from_vpx`, /repo/src/vpx/export/camera.rs:222-238 -/
def fullscreenSettings (g : GameData) : ViewSettings F32 where
  mode := .Fullscreen
  layout_mode := g.bg_view_mode_fullscreen.getD .Legacy
  fov := Arith.fmax g.bg_fov_fullscreen f32One
  inclination := g.bg_inclination_fullscreen
  offset_x := g.bg_offset_x_fullscreen
  offset_y := g.bg_offset_y_fullscreen
  offset_z := g.bg_offset_z_fullscreen
  scale_x := g.bg_scale_x_fullscreen
  scale_y := g.bg_scale_y_fullscreen

/-- `ViewSettings::fss_from_vpx`, /repo/src/vpx/export/camera.rs:249-272; the defaults are 45, 52, 0, 30, -50, 1.2 and
1.1 -/
def fssSettings (g : GameData) : ViewSettings F32 where
  mode := .Fss
  layout_mode := g.bg_view_mode_full_single_screen.getD .Legacy
  fov := Arith.fmax (g.bg_fov_full_single_screen.getD 0x42340000) f32One
  inclination := g.bg_inclination_full_single_screen.getD 0x42500000
  offset_x := g.bg_offset_x_full_single_screen.getD 0
  offset_y := g.bg_offset_y_full_single_screen.getD 0x41f00000
  offset_z := g.bg_offset_z_full_single_screen.getD 0xc2480000
  scale_x := g.bg_scale_x_full_single_screen.getD 0x3f99999a
  scale_y := g.bg_scale_y_full_single_screen.getD 0x3f8ccccd

/-- `TableBounds::from_vpx`, /repo/src/vpx/export/camera.rs:299-307 -/
def tableBounds (g : GameData) : TableBounds F32 := ⟨g.left, g.top, g.right, g.bottom, g.glass_top_height⟩

/-- the camera as the export takes it, /repo/src/vpx/export/gltf_export.rs:2911 -/
def ViewCamera.toGltf (c : ViewCamera F32) : GltfCamera :=
  ⟨c.mode.cameraName, ⟨c.position.x, c.position.y, c.position.z⟩, c.rotation, c.yfov, c.znear, c.zfar⟩

/-- `GltfCamera::all_from_vpx`, /repo/src/vpx/export/camera.rs:635-643 -/
def viewCameras (tan : F32 → F32) (vpx : VPX) : List GltfCamera :=
  letI := f32Camera tan
  [desktopSettings vpx.gamedata, fullscreenSettings vpx.gamedata, fssSettings vpx.gamedata].map
    fun s => (ViewCamera.of s (tableBounds vpx.gamedata)).toGltf

end

/-- the export with its cameras, /repo/src/vpx/export/gltf_export.rs:2911 -/
def GltfEnv.withCameras [Arith] (E : GltfEnv) (tan : F32 → F32) : GltfEnv := { E with cameras := viewCameras tan }

end Vpin
