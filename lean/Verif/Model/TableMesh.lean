import Verif.Model.Matrix
import Verif.Model.GltfCollect
/-
The meshes of the items whose shape is a fixed table of the program: bumpers, gates, hit targets, kickers, spinners,
triggers, balls and the bulbs of lights; and of decals, which are rectangles. /repo/src/vpx/mesh/*/mod.rs.

Every generator takes the vertices of a table one by one, turns and scales them, and takes the triangles of the table
as they are. The turning and scaling of a point is written here for any type of numbers (`Ops`), as in
Model/Matrix: with `F32` it is the model of the code, with exact numbers geometry can be said about it. A constant of
the code that takes part is an argument.

The tables themselves are arguments too (`MeshTables`); Model/MeshData holds those of /repo. A table holds its
triangles one by one, where the code has a flat list of indices that it cuts in groups of three: the tables of
/repo have a multiple of three indices. The bytes of a `VertexWrapper`, which the exporters do not look at, are left out.
-/
namespace Vpin

/-- a table of the program: `..._MESH: [Vertex3dNoTex2; n]` and `..._INDICES: [u16; 3 * m]`,
/repo/src/vpx/mesh/bumpers/mod.rs:15 -/
structure MeshTable where
  vertices : List Vertex
  tris : List Tri
  deriving DecidableEq, Repr

/-! ### Turning and scaling a point, for any type of numbers -/

/-- `Mat3`, /repo/src/vpx/math/vec.rs:151-153 -/
structure Mat3 (α : Type) where
  r0 : V3 α
  r1 : V3 α
  r2 : V3 α
  deriving DecidableEq, Repr

section
variable {α : Type} [Ops α]
open Ops

/-- `Mat3::rotate_z`, /repo/src/vpx/math/vec.rs:157-162 -/
def Mat3.rotateZ (a : α) : Mat3 α := ⟨⟨cos a, neg (sin a), zero⟩, ⟨sin a, cos a, zero⟩, ⟨zero, zero, one⟩⟩

/-- `Mat3::multiply_vector`, /repo/src/vpx/math/vec.rs:165-171; `multiply_vector_no_translate`, 175-177, is the same -/
def Mat3.multiplyVector (m : Mat3 α) (v : V3 α) : V3 α :=
  ⟨add (add (mul m.r0.x v.x) (mul m.r0.y v.y)) (mul m.r0.z v.z),
   add (add (mul m.r1.x v.x) (mul m.r1.y v.y)) (mul m.r1.z v.z),
   add (add (mul m.r2.x v.x) (mul m.r2.y v.y)) (mul m.r2.z v.z)⟩

/-- every coordinate with a factor of its own, the point first (used in /repo/src/vpx/mesh/bumpers/mod.rs:82-126) -/
def V3.times (p : V3 α) (x y z : α) : V3 α := ⟨mul p.x x, mul p.y y, mul p.z z⟩

/-- `z + d` (used in /repo/src/vpx/mesh/bumpers/mod.rs:82-126) -/
def V3.raise (p : V3 α) (d : α) : V3 α := ⟨p.x, p.y, add p.z d⟩

/-- a point of the base and of the ring of a bumper, /repo/src/vpx/mesh/bumpers/mod.rs:88-92, 103-105 and 185-189,
200-202 -/
def bumperPoint (orientation radius heightScale : α) (p : V3 α) : V3 α :=
  ((Mat3.rotateZ (radians orientation)).multiplyVector p).times radius radius heightScale

/-- a point of the socket, /repo/src/vpx/mesh/bumpers/mod.rs:136-140, 151-154; `five` is `5.0` -/
def bumperSocketPoint (five orientation radius heightScale : α) (p : V3 α) : V3 α :=
  (((Mat3.rotateZ (radians orientation)).multiplyVector p).times radius radius heightScale).raise five

/-- a point of the cap, /repo/src/vpx/mesh/bumpers/mod.rs:229, 234-238, 249-252; `two` is `2.0` -/
def bumperCapPoint (two orientation radius heightScale : α) (p : V3 α) : V3 α :=
  (((Mat3.rotateZ (radians orientation)).multiplyVector p).times (mul radius two) (mul radius two) heightScale).raise
    heightScale

/-- a turn about the z axis by an angle in degrees: the normals of bumpers, hit targets and spinners (used in
/repo/src/vpx/mesh/bumpers/mod.rs:82-126) -/
def turnedNormal (angle : α) (n : V3 α) : V3 α := (Mat3.rotateZ (radians angle)).multiplyVector n

/-- a point of a spinner, /repo/src/vpx/mesh/spinners/mod.rs:68-72, 83-85 and 126-130, 141-143 -/
def spinnerPoint (rotation length : α) (p : V3 α) : V3 α :=
  ((Mat3.rotateZ (radians rotation)).multiplyVector p).times length length length

/-- a point of a hit target, /repo/src/vpx/mesh/hittargets/mod.rs:108-115 -/
def hitTargetPoint (rotZ : α) (size p : V3 α) : V3 α :=
  (Mat3.rotateZ (radians rotZ)).multiplyVector (p.times size.x size.y size.z)

/-- `Matrix3D::scale_uniform`, /repo/src/vpx/math/matrix.rs:144-146 -/
def Matrix3D.scaleUniform (s : α) : Matrix3D α := .scale s s s

/-- a point of the bracket of a gate, /repo/src/vpx/mesh/gates/mod.rs:68-69, 75-76 -/
def gateBracketPoint (rotation length : α) (p : V3 α) : V3 α :=
  ((Matrix3D.rotateZ (radians rotation)).mult (.scaleUniform length)).transformVertex p

/-- a point of the wire of a gate, /repo/src/vpx/mesh/gates/mod.rs:128, 134-135 -/
def gateWirePoint (rotation : α) (p : V3 α) : V3 α := (Matrix3D.rotateZ (radians rotation)).transformVertex p

/-- a normal turned about the z axis by `Matrix3D`, /repo/src/vpx/mesh/gates/mod.rs:79, 138-139 and
/repo/src/vpx/mesh/kickers/mod.rs:210 -/
def rowTurnedNormal (angle : α) (n : V3 α) : V3 α := (Matrix3D.rotateZ (radians angle)).transformNormal n

/-- a point of the body of a kicker, /repo/src/vpx/mesh/kickers/mod.rs:190, 198-207 -/
def kickerPoint (zRot zOffset radius : α) (p : V3 α) : V3 α :=
  ((Matrix3D.rotateZ (radians zRot)).transformVertex (p.raise zOffset)).times radius radius radius

/-- a point scaled alike in all directions: the plate of a kicker, /repo/src/vpx/mesh/kickers/mod.rs:104-106, a ball,
/repo/src/vpx/mesh/balls/mod.rs:46-48, and the bulb and socket of a light, /repo/src/vpx/mesh/lights/mod.rs:203-205,
232-234 -/
def scaledPoint (radius : α) (p : V3 α) : V3 α := p.times radius radius radius

/-- a point of a trigger before the thickness of its wire, /repo/src/vpx/mesh/triggers/mod.rs:147-163 -/
def triggerPoint (m : Matrix3D α) (sx sy sz zOffset : α) (p : V3 α) : V3 α :=
  ((m.transformVertex p).times sx sy sz).raise zOffset

/-- a corner of a decal, /repo/src/vpx/mesh/decals/mod.rs:84-85 (`top` and `left`), 98-99, 112-113, 126-127; the
leading and descent added to the half height are zero -/
def decalCorner (sn cs halfWidth halfHeight : α) (top left : Bool) : α × α :=
  let h := add halfHeight zero
  let (a, b) := if top then (mul sn h, mul (neg cs) h) else (mul (neg sn) h, mul cs h)
  let (c, d) := (mul cs halfWidth, mul sn halfWidth)
  if left then (sub a c, sub b d) else (add a c, add b d)

end

/-! ### The meshes -/

section
variable [Arith]
open Arith

/-- `Vertex3D::normalized`, /repo/src/vpx/math/matrix.rs:28-41 -/
def V3.normalized (n : V3 F32) : V3 F32 :=
  let len := sqrt (n.x *ᶠ n.x +ᶠ n.y *ᶠ n.y +ᶠ n.z *ᶠ n.z)
  if (0 : F32) <ᶠ len then
    let inv := f32One /ᶠ len
    ⟨n.x *ᶠ inv, n.y *ᶠ inv, n.z *ᶠ inv⟩
  else n

/-- the position of a vertex (used in /repo/src/vpx/mesh/bumpers/mod.rs:82-126) -/
def Vertex.pos (v : Vertex) : V3 F32 := ⟨v.x, v.y, v.z⟩

/-- the normal of a vertex (used in /repo/src/vpx/mesh/bumpers/mod.rs:82-126) -/
def Vertex.normal (v : Vertex) : V3 F32 := ⟨v.nx, v.ny, v.nz⟩

/-- the mesh of a table: every vertex with a new position and a new normal, its texture coordinates as they are (used
in /repo/src/vpx/mesh/bumpers/mod.rs:82-126) -/
def MeshTable.mesh (t : MeshTable) (point normal : V3 F32 → V3 F32) : RawMesh where
  vertices := t.vertices.map fun v =>
    let p := point v.pos
    let n := normal v.normal
    ⟨p.x, p.y, p.z, n.x, n.y, n.z, v.tu, v.tv⟩
  faces := t.tris.map Tri.face

/-- the tables of the program (used in /repo/src/vpx/mesh/bumpers/mod.rs:26) -/
structure MeshTables where
  bumperBase : MeshTable
  bumperSocket : MeshTable
  bumperRing : MeshTable
  bumperCap : MeshTable
  gateBracket : MeshTable
  gateWire : MeshTable
  gateWireRectangle : MeshTable
  gatePlate : MeshTable
  gateLongPlate : MeshTable
  dropTargetT2 : MeshTable
  dropTargetT3 : MeshTable
  dropTargetT4 : MeshTable
  hitTargetRound : MeshTable
  hitTargetRectangle : MeshTable
  hitTargetFatRectangle : MeshTable
  hitTargetFatSquare : MeshTable
  hitTargetT1Slim : MeshTable
  hitTargetT2Slim : MeshTable
  kickerPlate : MeshTable
  kickerCup : MeshTable
  kickerWilliams : MeshTable
  kickerGottlieb : MeshTable
  kickerT1 : MeshTable
  kickerHole : MeshTable
  kickerSimpleHole : MeshTable
  spinnerBracket : MeshTable
  spinnerPlate : MeshTable
  triggerSimple : MeshTable
  triggerWireD : MeshTable
  triggerStar : MeshTable
  triggerButton : MeshTable
  triggerInder : MeshTable
  ball : MeshTable
  bulbLight : MeshTable
  bulbSocket : MeshTable
  flipperBase : MeshTable

/-- 5.0 (for instance in /repo/src/vpx/mesh/bumpers/mod.rs:154) -/
def fFive : F32 := 0x40a00000
/-- 0.82 (for instance in /repo/src/vpx/mesh/kickers/mod.rs:93) -/
def f0p82 : F32 := 0x3f51eb85
/-- 0.87 (for instance in /repo/src/vpx/mesh/kickers/mod.rs:91) -/
def f0p87 : F32 := 0x3f5eb852
/-- 0.88 (for instance in /repo/src/vpx/mesh/kickers/mod.rs:90) -/
def f0p88 : F32 := 0x3f6147ae
/-- -0.18, /repo/src/vpx/mesh/kickers/mod.rs:151 -/
def fm0p18 : F32 := 0xbe3851ec
/-- 90.0 (for instance in /repo/src/vpx/mesh/kickers/mod.rs:158) -/
def f90 : F32 := 0x42b40000
/-- -23.0, /repo/src/vpx/mesh/triggers/mod.rs:80 -/
def fm23 : F32 := 0xc1b80000
/-- 140.0 (for instance in /repo/src/vpx/mesh/triggers/mod.rs:83) -/
def f140 : F32 := 0x430c0000
/-- -19.0 (for instance in /repo/src/vpx/mesh/triggers/mod.rs:62) -/
def fm19 : F32 := 0xc1980000

/-- `build_bumper_meshes`, /repo/src/vpx/mesh/bumpers/mod.rs:53-78, with `generate_base_mesh` 82-126,
`generate_socket_mesh` 130-175, `generate_ring_mesh` 179-223 and `generate_cap_mesh` 227-273 -/
def buildBumperMeshes (T : MeshTables) (b : Bumper) : BumperMeshes :=
  let turn := turnedNormal b.orientation
  let part := bumperPoint b.orientation b.radius b.height_scale
  { base := if b.is_base_visible then some (T.bumperBase.mesh part turn) else none
    socket := if b.is_socket_visible.getD true then
        some (T.bumperSocket.mesh (bumperSocketPoint fFive b.orientation b.radius b.height_scale) turn)
      else none
    ring := if b.is_ring_visible.getD true then some (T.bumperRing.mesh part turn) else none
    cap := if b.is_cap_visible then
        some (T.bumperCap.mesh (bumperCapPoint fTwo b.orientation b.radius b.height_scale) turn)
      else none }

/-- `get_mesh_for_type`, /repo/src/vpx/mesh/gates/mod.rs:45-53; `UNKNOWN_FALLBACK` is `WireW`,
/repo/src/vpx/gameitem/gate.rs:37 -/
def MeshTables.gate (T : MeshTables) : GateType → MeshTable
  | .WireW => T.gateWire
  | .WireRectangle => T.gateWireRectangle
  | .Plate => T.gatePlate
  | .LongPlate => T.gateLongPlate
  | .Unknown _ => T.gateWire

/-- `build_gate_meshes_unchecked`, /repo/src/vpx/mesh/gates/mod.rs:192-207, with `generate_bracket_mesh` 67-108 and
`generate_wire_mesh` 123-168 -/
def buildGateMeshesUnchecked (T : MeshTables) (g : Gate) : Option (Option RawMesh × RawMesh) :=
  let normal := fun n => (rowTurnedNormal g.rotation n).normalized
  some (if g.show_bracket then some (T.gateBracket.mesh (gateBracketPoint g.rotation g.length) normal) else none,
    (T.gate (g.gate_type.getD .WireW)).mesh (gateWirePoint g.rotation) normal)

/-- `build_gate_meshes`, /repo/src/vpx/mesh/gates/mod.rs:180-185 -/
def buildGateMeshes (T : MeshTables) (g : Gate) : Option (Option RawMesh × RawMesh) :=
  if !g.is_visible then none else buildGateMeshesUnchecked T g

/-- `get_mesh_for_type`, /repo/src/vpx/mesh/hittargets/mod.rs:49-68 -/
def MeshTables.hitTarget (T : MeshTables) : TargetType → MeshTable
  | .DropTargetBeveled => T.dropTargetT2
  | .DropTargetSimple => T.dropTargetT3
  | .DropTargetFlatSimple => T.dropTargetT4
  | .HitTargetRound => T.hitTargetRound
  | .HitTargetRectangle => T.hitTargetRectangle
  | .HitFatTargetRectangle => T.hitTargetFatRectangle
  | .HitFatTargetSquare => T.hitTargetFatSquare
  | .HitTargetSlim => T.hitTargetT1Slim
  | .HitFatTargetSlim => T.hitTargetT2Slim

/-- `build_hit_target_mesh_unchecked`, /repo/src/vpx/mesh/hittargets/mod.rs:98-154 -/
def buildHitTargetMeshUnchecked (T : MeshTables) (h : HitTarget) : Option RawMesh :=
  some ((T.hitTarget h.target_type).mesh (hitTargetPoint h.rot_z ⟨h.size.x, h.size.y, h.size.z⟩)
    (turnedNormal h.rot_z))

/-- `build_hit_target_mesh`, /repo/src/vpx/mesh/hittargets/mod.rs:86-91 -/
def buildHitTargetMesh (T : MeshTables) (h : HitTarget) : Option RawMesh :=
  if !h.is_visible then none else buildHitTargetMeshUnchecked T h

/-- the radius of the plate of a kicker, /repo/src/vpx/mesh/kickers/mod.rs:89-94 -/
def kickerPlateRadius (k : Kicker) : F32 :=
  match k.kicker_type with
  | .Williams | .Gottlieb => k.radius *ᶠ f0p88
  | .Cup2 => k.radius *ᶠ f0p87
  | .Cup => k.radius
  | _ => k.radius *ᶠ f0p82

/-- `generate_plate_mesh`, /repo/src/vpx/mesh/kickers/mod.rs:86-134: the texture coordinates are zero -/
def kickerPlateMesh (T : MeshTables) (k : Kicker) : RawMesh :=
  let m := T.kickerPlate.mesh (scaledPoint (kickerPlateRadius k)) id
  { m with vertices := m.vertices.map fun v => { v with tu := 0, tv := 0 } }

/-- the table, the offset and the angle of the body of a kicker, /repo/src/vpx/mesh/kickers/mod.rs:147-184 -/
def kickerBody (T : MeshTables) (k : Kicker) : MeshTable × F32 × F32 :=
  match k.kicker_type with
  | .Cup => (T.kickerCup, fm0p18, k.orientation)
  | .Williams => (T.kickerWilliams, 0, k.orientation +ᶠ f90)
  | .Gottlieb => (T.kickerGottlieb, 0, k.orientation)
  | .Cup2 => (T.kickerT1, 0, k.orientation)
  | .Hole => (T.kickerHole, 0, 0)
  | .HoleSimple | .Invisible => (T.kickerSimpleHole, 0, 0)

/-- `generate_kicker_mesh`, /repo/src/vpx/mesh/kickers/mod.rs:144-238 -/
def kickerBodyMesh (T : MeshTables) (k : Kicker) : RawMesh :=
  let (t, zOffset, zRot) := kickerBody T k
  t.mesh (kickerPoint zRot zOffset k.radius) (rowTurnedNormal zRot)

/-- `build_kicker_meshes`, /repo/src/vpx/mesh/kickers/mod.rs:63-76 -/
def buildKickerMeshes (T : MeshTables) (k : Kicker) : Option RawMesh × Option RawMesh :=
  if k.kicker_type = .Invisible then (none, none)
  else (some (kickerPlateMesh T k), some (kickerBodyMesh T k))

/-- `build_spinner_meshes`, /repo/src/vpx/mesh/spinners/mod.rs:44-55, with `generate_bracket_mesh` 59-106 and
`generate_plate_mesh` 113-164 -/
def buildSpinnerMeshes (T : MeshTables) (s : Spinner) : Option RawMesh × RawMesh :=
  let point := spinnerPoint s.rotation s.length
  let normal := turnedNormal s.rotation
  (if s.show_bracket then some (T.spinnerBracket.mesh point normal) else none, T.spinnerPlate.mesh point normal)

/-- `get_mesh_for_shape`, /repo/src/vpx/mesh/triggers/mod.rs:40-51 -/
def MeshTables.trigger (T : MeshTables) : TriggerShape → Option MeshTable
  | .None => none
  | .WireA | .WireB | .WireC => some T.triggerSimple
  | .WireD => some T.triggerWireD
  | .Star => some T.triggerStar
  | .Button => some T.triggerButton
  | .Inder => some T.triggerInder

/-- `get_z_offset`, /repo/src/vpx/mesh/triggers/mod.rs:59-65 -/
def triggerZOffset : TriggerShape → F32
  | .Button => fFive
  | .WireC => fm19
  | _ => 0

/-- `get_rotation_matrix`, /repo/src/vpx/mesh/triggers/mod.rs:77-87 -/
def triggerMatrix (shape : TriggerShape) (rotation : F32) : Matrix3D F32 :=
  match shape with
  | .WireB => (Matrix3D.rotateX (Ops.radians fm23)).mult (.rotateZ (Ops.radians rotation))
  | .WireC => (Matrix3D.rotateX (Ops.radians f140)).mult (.rotateZ (Ops.radians rotation))
  | _ => .rotateZ (Ops.radians rotation)

/-- `uses_radius_scaling`, /repo/src/vpx/mesh/triggers/mod.rs:97-99 -/
def usesRadiusScaling : TriggerShape → Bool
  | .Button | .Star => true
  | _ => false

/-- `uses_wire_thickness`, /repo/src/vpx/mesh/triggers/mod.rs:107-116 -/
def usesWireThickness : TriggerShape → Bool
  | .WireA | .WireB | .WireC | .WireD | .Inder => true
  | _ => false

/-- a vertex of a trigger, /repo/src/vpx/mesh/triggers/mod.rs:143-193 -/
def triggerVertex (t : Trigger) (v : Vertex) : Vertex :=
  let m := triggerMatrix t.shape t.rotation
  let p :=
    if usesRadiusScaling t.shape then triggerPoint m t.radius t.radius t.radius (triggerZOffset t.shape) v.pos
    else triggerPoint m t.scale_x t.scale_y f32One (triggerZOffset t.shape) v.pos
  let n := (m.transformNormal v.normal).normalized
  let w := t.wire_thickness.getD 0
  let q : V3 F32 :=
    if usesWireThickness t.shape then ⟨p.x +ᶠ n.x *ᶠ w, p.y +ᶠ n.y *ᶠ w, p.z +ᶠ n.z *ᶠ w⟩ else p
  ⟨q.x, q.y, q.z, n.x, n.y, n.z, v.tu, v.tv⟩

/-- `build_trigger_mesh`, /repo/src/vpx/mesh/triggers/mod.rs:130-206 -/
def buildTriggerMesh (T : MeshTables) (t : Trigger) : Option RawMesh :=
  if !t.is_visible then none
  else (T.trigger t.shape).map fun table => ⟨table.vertices.map (triggerVertex t), table.tris.map Tri.face⟩

/-- `build_ball_mesh`, /repo/src/vpx/mesh/balls/mod.rs:34-72 -/
def buildBallMesh (T : MeshTables) (b : Ball) : RawMesh := T.ball.mesh (scaledPoint b.radius) id

/-- `build_light_meshes`, /repo/src/vpx/mesh/lights/mod.rs:53-76, with `build_bulb_mesh` 198-222 and
`build_socket_mesh` 227-251 -/
def buildLightMeshes (T : MeshTables) (l : Light) : Option (Option RawMesh × Option RawMesh) :=
  if l.is_backglass then none
  else if !l.show_bulb_mesh then none
  else some (some (T.bulbLight.mesh (scaledPoint l.mesh_radius) id),
    some (T.bulbSocket.mesh (scaledPoint l.mesh_radius) id))

/-- `build_decal_mesh`, /repo/src/vpx/mesh/decals/mod.rs:32-155 -/
def buildDecalMesh (d : Decal) : Option RawMesh :=
  if d.decal_type = .Text then none
  else if d.backglass then none
  else if d.decal_type = .Image ∧ d.image = [] then none
  else
    let angle : F32 := Ops.radians d.rotation
    let corner := decalCorner (Ops.sin angle) (Ops.cos angle) (d.width *ᶠ fHalf) (d.height *ᶠ fHalf)
    let vertex (top left : Bool) : Vertex :=
      ⟨(corner top left).1, (corner top left).2, 0, 0, 0, f32One, if left then 0 else f32One, if top then 0 else f32One⟩
    some ⟨[vertex true true, vertex true false, vertex false true, vertex false false], [⟨0, 1, 2⟩, ⟨2, 1, 3⟩]⟩

end
end Vpin
