import Verif.Model.TableMesh
/-
The mesh of a flipper, /repo/src/vpx/mesh/flippers/mod.rs.

A fixed table holds a bat with a round base at the origin and a round tip. The vertices of the two round ends are found
by comparing them with two lists of 13 points, and are put on circles of the wanted radii.
-/
namespace Vpin

/-- functions of std the meshes of items need: `f32::asin`, `f32::atan2` and `str::parse::<f32>`. Nothing is assumed
about them. (used in /repo/src/vpx/mesh/flippers/mod.rs:204) -/
structure ItemFns where
  asin : F32 → F32
  atan2 : F32 → F32 → F32
  parse32 : Str → Option F32

section
variable {α : Type} [Ops α]
open Ops

/-- the point at an angle on a circle, /repo/src/vpx/mesh/flippers/mod.rs:163-164 -/
def circlePoint (angle radius cx cy : α) : α × α := (add (mul (cos angle) radius) cx, add (mul (sin angle) radius) cy)

/-- an angle moved away from the one in the middle, /repo/src/vpx/mesh/flippers/mod.rs:159-160 -/
def fixedAngle (mid scale sign a : α) : α := sub a (mul (mul (sub a mid) scale) sign)

/-- a turn about the z axis written out, /repo/src/vpx/mesh/flippers/mod.rs:628-630 -/
def turnedXy (a x y : α) : α × α := (sub (mul x (cos a)) (mul y (sin a)), add (mul x (sin a)) (mul y (cos a)))

/-- where a point of the bat goes, /repo/src/vpx/mesh/flippers/mod.rs:598-609, 627-630: half a turn (`half` degrees),
the height, and the angle of the flipper -/
def flipperPoint (half startAngle height lift : α) (p : V3 α) : V3 α :=
  let r := (Mat3.rotateZ (radians half)).multiplyVector p
  let xy := turnedXy (radians startAngle) r.x r.y
  ⟨xy.1, xy.2, add (mul r.z height) lift⟩

/-- the same for a normal, /repo/src/vpx/mesh/flippers/mod.rs:616-634 -/
def flipperNormal (half startAngle : α) (n : V3 α) : V3 α :=
  let r := (Mat3.rotateZ (radians half)).multiplyVector n
  let xy := turnedXy (radians startAngle) r.x r.y
  ⟨xy.1, xy.2, r.z⟩

end

section
variable [Arith]
open Arith

/-- `sgn`, /repo/src/vpx/mesh/flippers/mod.rs:114-122 -/
def sgn (x : F32) : F32 := if (0 : F32) <ᶠ x then f32One else if x <ᶠ 0 then F32.neg f32One else 0

/-- an angle with the sign of the angle in the middle, /repo/src/vpx/mesh/flippers/mod.rs:141-155 -/
def sameSign (mid a : F32) : F32 :=
  if mid <ᶠ 0 then if (0 : F32) <ᶠ a then a -ᶠ fPi *ᶠ fTwo else a
  else if a <ᶠ 0 then a +ᶠ fPi *ᶠ fTwo else a

/-- `apply_fix`, /repo/src/vpx/mesh/flippers/mod.rs:129-167 -/
def applyFix (A : ItemFns) (center : Vec2) (mid radius : F32) (newCenter : Vec2) (scale : F32) (v : Vertex) : Vertex :=
  let vAngle := sameSign mid (A.atan2 (v.y -ᶠ center.y) (v.x -ᶠ center.x))
  let nAngle := sameSign mid (A.atan2 v.ny v.nx)
  let nAngle := nAngle -ᶠ (vAngle -ᶠ mid) *ᶠ scale *ᶠ sgn mid
  let vAngle := fixedAngle mid scale (sgn mid) vAngle
  let nLength := sqrt (v.nx *ᶠ v.nx +ᶠ v.ny *ᶠ v.ny)
  let p := circlePoint vAngle radius newCenter.x newCenter.y
  { v with x := p.1, y := p.2, nx := Ops.cos nAngle *ᶠ nLength, ny := Ops.sin nAngle *ᶠ nLength }

/-- `vertex_matches`, /repo/src/vpx/mesh/flippers/mod.rs:170-173 -/
def vertexMatches (v : Vertex) (x y z : F32) : Bool :=
  (F32.abs (v.x -ᶠ x) <ᶠ f1em4) && (F32.abs (v.y -ᶠ y) <ᶠ f1em4) && (F32.abs (v.z -ᶠ z) <ᶠ f1em4)

omit [Arith] in
/-- the x and y of `VERTS_BASE_BOTTOM` and `VERTS_BASE_TOP`, /repo/src/vpx/mesh/flippers/mod.rs:78-111 -/
def vertsBase : List Vec2 :=
  [⟨0xbdce5c4f, 0⟩, ⟨0xbdc7546d, 0xbcd5a3a1⟩, ⟨0xbdb2b6f2, 0xbd4e5c4f⟩, ⟨0xbd91eb85, 0xbd91eb85⟩,
   ⟨0xbd4e5c4f, 0xbdb2b6f2⟩, ⟨0xbcd5a3a1, 0xbdc7546d⟩, ⟨0, 0xbdce5c4f⟩, ⟨0x3cd5a3a1, 0xbdc7546d⟩,
   ⟨0x3d4e5c4f, 0xbdb2b6f2⟩, ⟨0x3d91eb85, 0xbd91eb85⟩, ⟨0x3db2b6f2, 0xbd4e5c4f⟩, ⟨0x3dc7546d, 0xbcd5a3a1⟩,
   ⟨0x3dce5c4f, 0⟩]

omit [Arith] in
/-- the x and y of `VERTS_TIP_BOTTOM` and `VERTS_TIP_TOP`, /repo/src/vpx/mesh/flippers/mod.rs:38-72 -/
def vertsTip : List Vec2 :=
  [⟨0xbdcfb7e9, 0x3f494c34⟩, ⟨0xbdc8a3f9, 0x3f500486⟩, ⟨0xbdb3e3e3, 0x3f5647aa⟩, ⟨0xbd92e0e3, 0x3f5ba850⟩,
   ⟨0xbd4fb86f, 0x3f5fc89f⟩, ⟨0xbcd70c56, 0x3f6260b3⟩, ⟨0, 0x3f634331⟩, ⟨0x3cd70c56, 0x3f6260b3⟩,
   ⟨0x3d4fb86f, 0x3f5fc89f⟩, ⟨0x3d92e0e3, 0x3f5ba850⟩, ⟨0x3db3e3e3, 0x3f5647aa⟩, ⟨0x3dc8a3f9, 0x3f500486⟩,
   ⟨0x3dcfb7e9, 0x3f494c34⟩]

/-- 0.003753, the z of the bottom points, /repo/src/vpx/mesh/flippers/mod.rs:40 -/
def fBatBottom : F32 := 0x3b75f4e4
/-- 1.004253, the z of the top points, /repo/src/vpx/mesh/flippers/mod.rs:59 -/
def fBatTop : F32 := 0x3f808b5d

/-- the radii of a flipper as one of its two meshes uses them (used in /repo/src/vpx/mesh/flippers/mod.rs:183) -/
structure BatShape where
  baseRadius : F32
  endRadius : F32
  /-- `flipper_radius_max` -/
  length : F32
  /-- `fix_angle_scale` -/
  scale : F32

/-- a vertex at one of the 13 steps, /repo/src/vpx/mesh/flippers/mod.rs:534-585 and 661-712: four comparisons, each with
what the one before left -/
def fixVertex (A : ItemFns) (s : BatShape) (base tip : Vec2) (v : Vertex) : Vertex :=
  let fixBase := applyFix A ⟨0, 0⟩ (F32.neg fPi *ᶠ fHalf) s.baseRadius ⟨0, 0⟩ s.scale
  let fixTip := applyFix A ⟨0, 0x3f494c34⟩ (fPi *ᶠ fHalf) s.endRadius ⟨0, s.length⟩ s.scale
  let v := if vertexMatches v base.x base.y fBatBottom then fixBase v else v
  let v := if vertexMatches v tip.x tip.y fBatBottom then fixTip v else v
  let v := if vertexMatches v base.x base.y fBatTop then fixBase v else v
  if vertexMatches v tip.x tip.y fBatTop then fixTip v else v

/-- a vertex after all the steps; the code goes through all vertices at every step, which is the same (used in
/repo/src/vpx/mesh/flippers/mod.rs:183) -/
def fixedVertex (A : ItemFns) (s : BatShape) (v : Vertex) : Vertex :=
  (vertsBase.zip vertsTip).foldl (fun v (b, t) => fixVertex A s b t v) v

/-- a vertex of a flipper, /repo/src/vpx/mesh/flippers/mod.rs:597-650: the place from the vertex that was put on the
circles, the normal and the texture coordinates from the table -/
def flipperVertex (A : ItemFns) (s : BatShape) (startAngle height lift : F32) (tv : F32 → F32) (v : Vertex) : Vertex :=
  let p := flipperPoint f180 startAngle height lift (fixedVertex A s v).pos
  let n := flipperNormal f180 startAngle v.normal
  ⟨p.x, p.y, p.z, n.x, n.y, n.z, v.tu, tv v.tv⟩

/-- `rubber_thickness.unwrap_or(rubber_thickness_int as f32)`, /repo/src/vpx/mesh/flippers/mod.rs:509-511 -/
def Flipper.thickness (f : Flipper) : F32 := f.rubber_thickness.getD (ofNat f.rubber_thickness_int.toNat)

/-- the same of the height, 512-514 -/
def Flipper.rubberZ (f : Flipper) : F32 := f.rubber_height.getD (ofNat f.rubber_height_int.toNat)

/-- the same of the width, 515-517 -/
def Flipper.rubberW (f : Flipper) : F32 := f.rubber_width.getD (ofNat f.rubber_width_int.toNat)

/-- `x.clamp(-1.0, 1.0)` (std) (used in /repo/src/vpx/mesh/flippers/mod.rs:203) -/
def clampOne (x : F32) : F32 :=
  if x <ᶠ F32.neg f32One then F32.neg f32One else if f32One <ᶠ x then f32One else x

/-- the shape of the bat of a flipper, /repo/src/vpx/mesh/flippers/mod.rs:520-526 -/
def Flipper.bat (A : ItemFns) (f : Flipper) : BatShape where
  baseRadius := f.base_radius -ᶠ f.thickness
  endRadius := f.end_radius -ᶠ f.thickness
  length := f.flipper_radius_max
  scale := A.asin (clampOne ((f.base_radius -ᶠ f.end_radius) /ᶠ f.flipper_radius_max)) /ᶠ (fPi *ᶠ fHalf)

/-- the shape of the rubber, /repo/src/vpx/mesh/flippers/mod.rs:670, 683 -/
def Flipper.rubberBat (A : ItemFns) (f : Flipper) : BatShape :=
  { f.bat A with
    baseRadius := f.base_radius -ᶠ f.thickness +ᶠ f.thickness
    endRadius := f.end_radius -ᶠ f.thickness +ᶠ f.thickness }

/-- `build_flipper_meshes_unchecked`, /repo/src/vpx/mesh/flippers/mod.rs:505-808 -/
def buildFlipperMeshesUnchecked (A : ItemFns) (T : MeshTables) (f : Flipper) (surfaceHeight : F32) :
    Option (Vec3 × RawMesh × Option RawMesh) :=
  let faces := T.flipperBase.tris.map Tri.face
  let base := T.flipperBase.vertices.map
    (flipperVertex A (f.bat A) f.start_angle f.height surfaceHeight id)
  let rubber := T.flipperBase.vertices.map
    (flipperVertex A (f.rubberBat A) f.start_angle f.rubberW (surfaceHeight +ᶠ f.rubberZ) (· +ᶠ fHalf))
  some (⟨f.center.x, f.center.y, surfaceHeight⟩, ⟨base, faces⟩,
    if (0 : F32) <ᶠ f.thickness then some ⟨rubber, faces⟩ else none)

/-- `build_flipper_meshes`, /repo/src/vpx/mesh/flippers/mod.rs:493-498 -/
def buildFlipperMeshes (A : ItemFns) (T : MeshTables) (f : Flipper) (surfaceHeight : F32) :
    Option (Vec3 × RawMesh × Option RawMesh) :=
  if !f.is_visible then none else buildFlipperMeshesUnchecked A T f surfaceHeight

/-- `build_flipper_mesh`, /repo/src/vpx/mesh/flippers/mod.rs:183-480: the two meshes as one, moved to the centre of the
flipper. The code adds the centre in the same expression as the last turn, which is the same sum. -/
def buildFlipperMesh (A : ItemFns) (T : MeshTables) (f : Flipper) (surfaceHeight : F32) : Option RawMesh :=
  (buildFlipperMeshes A T f surfaceHeight).map fun (_, base, rubber) =>
    let move (v : Vertex) : Vertex := { v with x := v.x +ᶠ f.center.x, y := v.y +ᶠ f.center.y }
    let n : Int := base.vertices.length
    match rubber with
    | none => ⟨base.vertices.map move, base.faces⟩
    | some r => ⟨base.vertices.map move ++ r.vertices.map move,
        base.faces ++ r.faces.map fun f => ⟨f.i0 + n, f.i1 + n, f.i2 + n⟩⟩

end
end Vpin
