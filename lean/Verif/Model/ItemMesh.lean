import Verif.Model.FlatMesh
import Verif.Model.PlungerMesh
import Verif.Model.MeshData.Balls
import Verif.Model.MeshData.Bumpers
import Verif.Model.MeshData.Flippers
import Verif.Model.MeshData.Gates
import Verif.Model.MeshData.Hittargets
import Verif.Model.MeshData.Kickers
import Verif.Model.MeshData.Lights
import Verif.Model.MeshData.Spinners
import Verif.Model.MeshData.Triggers
/-
The tables of /repo, and all meshes of items as the exporters use them.
-/
namespace Vpin

/-- the tables of /repo/src/vpx/mesh/*/*_mesh.rs -/
def meshTables : MeshTables where
  bumperBase := bumperBaseTable
  bumperSocket := bumperSocketTable
  bumperRing := bumperRingTable
  bumperCap := bumperCapTable
  gateBracket := gateBracketTable
  gateWire := gateWireTable
  gateWireRectangle := gateWireRectangleTable
  gatePlate := gatePlateTable
  gateLongPlate := gateLongPlateTable
  dropTargetT2 := dropTargetT2Table
  dropTargetT3 := dropTargetT3Table
  dropTargetT4 := dropTargetT4Table
  hitTargetRound := hitTargetRoundTable
  hitTargetRectangle := hitTargetRectangleTable
  hitTargetFatRectangle := hitTargetFatRectangleTable
  hitTargetFatSquare := hitTargetFatSquareTable
  hitTargetT1Slim := hitTargetT1SlimTable
  hitTargetT2Slim := hitTargetT2SlimTable
  kickerPlate := kickerPlateTable
  kickerCup := kickerCupTable
  kickerWilliams := kickerWilliamsTable
  kickerGottlieb := kickerGottliebTable
  kickerT1 := kickerT1Table
  kickerHole := kickerHoleTable
  kickerSimpleHole := kickerSimpleHoleTable
  spinnerBracket := spinnerBracketTable
  spinnerPlate := spinnerPlateTable
  triggerSimple := triggerSimpleTable
  triggerWireD := triggerWireDTable
  triggerStar := triggerStarTable
  triggerButton := triggerButtonTable
  triggerInder := triggerInderTable
  ball := ballTable
  bulbLight := bulbLightTable
  bulbSocket := bulbSocketTable
  flipperBase := flipperBaseTable

section
variable [Arith]

/-- the mesh of a drawn item for an exporter: none where the mesh cannot be made for want of fuel or because the
triangulation fails (used in /repo/src/vpx/export/obj_export.rs:427-462) -/
def orNone (r : Res (Option (RawMesh × Vec3))) : Option (RawMesh × Vec3) :=
  match r with
  | .ok m => m
  | .error _ => none

/-- the meshes of items as the exporters use them. `fuel` bounds the depth of the curve subdivision. (used in
/repo/src/vpx/export/obj_export.rs:427-462) -/
def itemStock (A : ItemFns) (T : MeshTables) (fuel : Nat) : GltfStock where
  bumper := buildBumperMeshes T
  plunger := buildPlungerMeshes A
  flipper f := buildFlipperMeshesUnchecked A T f 0
  gate := buildGateMeshesUnchecked T
  kicker := buildKickerMeshes T
  spinner := buildSpinnerMeshes T
  hitTarget := buildHitTargetMeshUnchecked T
  trigger := buildTriggerMesh T
  flasher f d := orNone (buildFlasherMesh fuel f d)
  light := buildLightMeshes T
  insert l d := orNone (buildLightInsertMesh fuel l d)
  decal := buildDecalMesh
  ball := buildBallMesh T

end
end Vpin
