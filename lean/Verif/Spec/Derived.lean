import Verif.Model.Derived
/-
Which mesh files are beside the files of the items when a table is expanded with derived meshes: the name of the file
without its extension, the name of the mesh in the file, and its vertices and faces.
-/
namespace Vpin
variable [Arith]

/-- `Derives … stem item file object m`: for the item in `stem.json` there is a file `file` with the mesh `m` under the
name `object` -/
inductive Derives (A : ItemFns) (T : MeshTables) (fuel : Nat) (stem : Str) : GameItemEnum → Str → Str → RawMesh → Prop
  | wall {w m} (h : buildWallMesh fuel w = .ok (some m)) :
      Derives A T fuel stem (.wall w) (stem ++ "-generated".toList) w.name m.raw
  | ramp {r m} (h : buildRampMesh fuel r ⟨0, 0, 0x446e0000, 0x45072000⟩ 10 false = .ok (some m)) :
      Derives A T fuel stem (.ramp r) (stem ++ "-generated".toList) r.name m.raw
  | rubber {r m c} (h : buildRubberMesh fuel r 10 = .ok (some (m, c))) :
      Derives A T fuel stem (.rubber r) (stem ++ "-generated".toList) r.name m.raw
  | flasher {f m c} (h : buildFlasherMesh fuel f ⟨0, 0, 0x446e0000, 0x45072000⟩ = .ok (some (m, c))) :
      Derives A T fuel stem (.flasher f) (stem ++ "-generated".toList) f.name m
  | flipper {f m} (h : buildFlipperMesh A T f 0 = some m) :
      Derives A T fuel stem (.flipper f) (stem ++ "-generated".toList) f.name m
  | hitTarget {x m} (h : buildHitTargetMesh T x = some m) :
      Derives A T fuel stem (.hitTarget x) (stem ++ "-generated".toList) x.name m
  | trigger {x m} (h : buildTriggerMesh T x = some m) :
      Derives A T fuel stem (.trigger x) (stem ++ "-generated".toList) x.name m
  | spinnerBracket {s m} (h : (buildSpinnerMeshes T s).1 = some m) :
      Derives A T fuel stem (.spinner s) (stem ++ "-bracket-generated".toList) (s.name ++ "Bracket".toList) m
  | spinnerPlate {s m} (h : (buildSpinnerMeshes T s).2 = m) :
      Derives A T fuel stem (.spinner s) (stem ++ "-plate-generated".toList) (s.name ++ "Plate".toList) m
  | bumperBase {b m} (h : (buildBumperMeshes T b).base = some m) :
      Derives A T fuel stem (.bumper b) (stem ++ "-base.json-generated".toList) (b.name ++ "Base".toList) m
  | bumperSocket {b m} (h : (buildBumperMeshes T b).socket = some m) :
      Derives A T fuel stem (.bumper b) (stem ++ "-socket.json-generated".toList) (b.name ++ "Socket".toList) m
  | bumperRing {b m} (h : (buildBumperMeshes T b).ring = some m) :
      Derives A T fuel stem (.bumper b) (stem ++ "-ring.json-generated".toList) (b.name ++ "Ring".toList) m
  | bumperCap {b m} (h : (buildBumperMeshes T b).cap = some m) :
      Derives A T fuel stem (.bumper b) (stem ++ "-cap.json-generated".toList) (b.name ++ "Cap".toList) m
  | gateBracket {g m w} (h : buildGateMeshes T g = some (some m, w)) :
      Derives A T fuel stem (.gate g) (stem ++ "-bracket.json-generated".toList) (g.name ++ "Bracket".toList) m
  | gateWire {g b m} (h : buildGateMeshes T g = some (b, m)) :
      Derives A T fuel stem (.gate g) (stem ++ "-wire.json-generated".toList) (g.name ++ "Wire".toList) m
  | plungerFlat {p m} (h : (buildPlungerMeshes A p).flat_rod = some m) :
      Derives A T fuel stem (.plunger p) (stem ++ "-flat.json-generated".toList) (p.name ++ "Flat".toList) m
  | plungerRod {p m} (h : (buildPlungerMeshes A p).rod = some m) :
      Derives A T fuel stem (.plunger p) (stem ++ "-rod.json-generated".toList) (p.name ++ "Rod".toList) m
  | plungerSpring {p m} (h : (buildPlungerMeshes A p).spring = some m) :
      Derives A T fuel stem (.plunger p) (stem ++ "-spring.json-generated".toList) (p.name ++ "Spring".toList) m
  | plungerRing {p m} (h : (buildPlungerMeshes A p).ring = some m) :
      Derives A T fuel stem (.plunger p) (stem ++ "-ring.json-generated".toList) (p.name ++ "Ring".toList) m
  | plungerTip {p m} (h : (buildPlungerMeshes A p).tip = some m) :
      Derives A T fuel stem (.plunger p) (stem ++ "-tip.json-generated".toList) (p.name ++ "Tip".toList) m
  | lightBulb {l m s} (h : buildLightMeshes T l = some (some m, s)) :
      Derives A T fuel stem (.light l) (stem ++ "-bulb".toList) (stem ++ "-bulb".toList) m
  | lightSocket {l b m} (h : buildLightMeshes T l = some (b, some m)) :
      Derives A T fuel stem (.light l) (stem ++ "-socket".toList) (stem ++ "-socket".toList) m

/-- the meshes of the item can be computed -/
def GameItemEnum.MeshesComputed (fuel : Nat) : GameItemEnum → Prop
  | .wall w => ∃ m, buildWallMesh fuel w = .ok m
  | .ramp r => ∃ m, buildRampMesh fuel r ⟨0, 0, 0x446e0000, 0x45072000⟩ 10 false = .ok m
  | .rubber r => ∃ m, buildRubberMesh fuel r 10 = .ok m
  | .flasher f => ∃ m, buildFlasherMesh fuel f ⟨0, 0, 0x446e0000, 0x45072000⟩ = .ok m
  | _ => True

/-- items whose shape is drawn with points: walls, ramps, rubbers and flashers -/
def GameItemEnum.drawn : GameItemEnum → Bool
  | .wall _ | .ramp _ | .rubber _ | .flasher _ => true
  | _ => false

/-- what is put into a mesh file for the item: the mesh, and for each vertex 32 bytes, which are zeros for the items that
are not drawn -/
def RawMesh.wrapped (item : GameItemEnum) (m : RawMesh) : Mesh :=
  ⟨m.vertices.map fun v => ⟨if item.drawn then [v.x, v.y, v.z, v.nx, v.ny, v.nz, v.tu, v.tv].flatMap le32
    else List.replicate 32 0, v⟩, m.faces⟩

end Vpin
