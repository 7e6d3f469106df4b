import Verif.Model.Expanded
import Verif.Model.ItemMesh
/-
/repo/src/vpx/expanded/primitives.rs:116-594: expanding a table with the option `generate_derived_meshes` on. Beside the
files of the items there are then files with the meshes of those items that are not primitives, for programs that show
them. `fuel` bounds the depth of the curve subdivision.
-/
namespace Vpin

/-- a mesh with the name of its file, without the extension, and the name it has in the file,
/repo/src/vpx/expanded/mod.rs:411-432 -/
structure DerivedMesh where
  stem : Str
  name : Str
  mesh : Mesh

/-- `to_vpx_bytes`, /repo/src/vpx/model.rs:20-30 -/
def Vertex.toVpx (v : Vertex) : Bytes := [v.x, v.y, v.z, v.nx, v.ny, v.nz, v.tu, v.tv].flatMap le32

/-- vertices with the bytes they have in a file, `to_vpx_bytes`, as in /repo/src/vpx/mesh/walls.rs:163-166, ramps.rs:358-361
and 752-755, rubbers.rs:396-399, flashers.rs:200-203 -/
def RawMesh.encoded (m : RawMesh) : Mesh := ⟨m.vertices.map fun v => ⟨v.toVpx, v⟩, m.faces⟩

/-- vertices with 32 zeros in place of their bytes, as in /repo/src/vpx/mesh/flippers/mod.rs:320,440, bumpers/mod.rs:100-246,
gates/mod.rs:82,142, spinners/mod.rs:80,138, hittargets/mod.rs:127, triggers/mod.rs:180, plungers/mod.rs:222-687,
lights/mod.rs:212,241 -/
def RawMesh.zeroed (m : RawMesh) : Mesh := ⟨m.vertices.map fun v => ⟨List.replicate 32 0, v⟩, m.faces⟩

/-- `generated_mesh_file_name` without the extension, /repo/src/vpx/expanded/mod.rs:397-408 -/
def generatedStem (base : Str) : Str := base ++ "-generated".toList

/-- `TableDimensions::new(0.0, 0.0, 952.0, 2162.0)`, /repo/src/vpx/expanded/primitives.rs:120 -/
def defaultDims : TableDims := ⟨0, 0, 0x446e0000, 0x45072000⟩

/-- one mesh for the item, as in `write_wall_meshes`, /repo/src/vpx/expanded/primitives.rs:558-571 -/
def wholeMesh (stem name : Str) (m : Option Mesh) : List DerivedMesh :=
  (m.map fun m => ⟨generatedStem stem, name, m⟩).toList

/-- a part of the item, if it is there, as in `write_bumper_meshes`, /repo/src/vpx/expanded/primitives.rs:232-307: the file
is named after the part and, with `.json` in it, generated -/
def partOf (stem name : Str) (file object : String) (m : Option RawMesh) : List DerivedMesh :=
  (m.map fun m => ⟨generatedStem (trimJson stem ++ file.toList ++ ".json".toList), name ++ object.toList, m.zeroed⟩).toList

/-- a part of a spinner, /repo/src/vpx/expanded/primitives.rs:444-482: without `.json` in it -/
def spinnerPart (stem name : Str) (file object : String) (m : Option RawMesh) : List DerivedMesh :=
  (m.map fun m => ⟨generatedStem (trimJson stem ++ file.toList), name ++ object.toList, m.zeroed⟩).toList

/-- a part of a light, /repo/src/vpx/mesh/lights/mod.rs:270-342: the mesh has the name of the file -/
def lightPart (stem : Str) (file : String) (m : Option RawMesh) : List DerivedMesh :=
  (m.map fun m => ⟨trimJson stem ++ file.toList, trimJson stem ++ file.toList, m.zeroed⟩).toList

section
variable [Arith]

/-- the meshes for an item, /repo/src/vpx/expanded/primitives.rs:122-180: walls 558-571, ramps 508-532, rubbers 534-556,
flashers 573-594, flippers 308-328, spinners 444-482, bumpers 232-307, hit targets 329-349, gates 185-230, triggers
484-506, plungers 351-442; lights /repo/src/vpx/mesh/lights/mod.rs:254-345. The detail level is 10
(`DEFAULT_DETAIL_LEVEL`, /repo/src/vpx/gamedata.rs:55). -/
def derivedMeshes (A : ItemFns) (T : MeshTables) (fuel : Nat) (stem : Str) : GameItemEnum → Res (List DerivedMesh)
  | .wall w => do
    let m ← buildWallMesh fuel w
    pure (wholeMesh stem w.name (m.map fun m => m.raw.encoded))
  | .ramp r => do
    let m ← buildRampMesh fuel r defaultDims 10 false
    pure (wholeMesh stem r.name (m.map fun m => m.raw.encoded))
  | .rubber r => do
    let m ← buildRubberMesh fuel r 10
    pure (wholeMesh stem r.name (m.map fun m => m.1.raw.encoded))
  | .flasher f => do
    let m ← buildFlasherMesh fuel f defaultDims
    pure (wholeMesh stem f.name (m.map fun m => m.1.encoded))
  | .flipper f => .ok (wholeMesh stem f.name ((buildFlipperMesh A T f 0).map RawMesh.zeroed))
  | .spinner s =>
    let m := buildSpinnerMeshes T s
    .ok (spinnerPart stem s.name "-bracket" "Bracket" m.1 ++ spinnerPart stem s.name "-plate" "Plate" (some m.2))
  | .bumper b =>
    let m := buildBumperMeshes T b
    .ok (partOf stem b.name "-base" "Base" m.base ++ partOf stem b.name "-socket" "Socket" m.socket
      ++ partOf stem b.name "-ring" "Ring" m.ring ++ partOf stem b.name "-cap" "Cap" m.cap)
  | .hitTarget h => .ok (wholeMesh stem h.name ((buildHitTargetMesh T h).map RawMesh.zeroed))
  | .gate g =>
    match buildGateMeshes T g with
    | none => .ok []
    | some m => .ok (partOf stem g.name "-bracket" "Bracket" m.1 ++ partOf stem g.name "-wire" "Wire" (some m.2))
  | .trigger t => .ok (wholeMesh stem t.name ((buildTriggerMesh T t).map RawMesh.zeroed))
  | .plunger p =>
    let m := buildPlungerMeshes A p
    .ok (partOf stem p.name "-flat" "Flat" m.flat_rod ++ partOf stem p.name "-rod" "Rod" m.rod
      ++ partOf stem p.name "-spring" "Spring" m.spring ++ partOf stem p.name "-ring" "Ring" m.ring
      ++ partOf stem p.name "-tip" "Tip" m.tip)
  | .light l =>
    match buildLightMeshes T l with
    | none => .ok []
    | some m => .ok (lightPart stem "-bulb" m.1 ++ lightPart stem "-socket" m.2)
  | _ => .ok []

/-- `write_item` with the option, /repo/src/vpx/expanded/gameitems.rs:111-122,
/repo/src/vpx/expanded/primitives.rs:58-183 -/
def derivedTask (E : ExpandEnv) (A : ItemFns) (T : MeshTables) (fuel : Nat) (fmt : MeshFormat) (stem : Str)
    (item : GameItemEnum) : Task :=
  let r := itemTask E fmt stem item
  match r.2 with
  | .error _ => r
  | .ok _ =>
    match derivedMeshes A T fuel stem item with
    | .error e => (r.1, .error e)
    | .ok ms => (r.1 ++ ms.flatMap (fun d => meshFiles E fmt d.stem d.name d.mesh), .ok ())

/-- `write_fs` with the option, /repo/src/vpx/expanded/mod.rs:171-245 -/
def expandDerived (E : ExpandEnv) (A : ItemFns) (T : MeshTables) (fuel : Nat) (fmt : MeshFormat) (root : Str) (t : VPX)
    (fs : Files) : Res Unit × Files :=
  runSteps (tableSteps E (writeItemTasks E (derivedTask E A T fuel fmt) root t.gameitems) root t) fs

end
end Vpin
