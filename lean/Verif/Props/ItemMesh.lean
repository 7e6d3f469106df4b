import Verif.Lemmas.ItemStock
import Verif.Props.ObjExport
import Verif.Props.GltfScene
import Verif.Props.Curve
import Verif.Lemmas.GltfSample
/-
C81: the meshes the program makes of items only use their own vertices, so that what is said of the exports of OBJ and
glTF files holds with these meshes without further conditions.
-/
namespace Vpin
open Scene
open Gltf (File)

section
variable [Arith]
open Arith

/-- **C81**: every corner of every triangle of the meshes of bumpers, gates, hit targets, kickers, spinners, triggers,
flippers, plungers, balls, lights, flashers and decals is a vertex of that mesh, whatever the item. -/
theorem C81_meshes_inside (A : ItemFns) (fuel : Nat) : GltfStockInside (itemStock A meshTables fuel) :=
  itemStock_inside meshTables_inside

/-- **C81**: a mesh of a flasher or of the insert of a light fails to be made only if the subdivision of its outline
does not end. -/
theorem C81_flat_total {fuel : Nat} {e : Err} {d : TableDims} :
    (∀ {f : Flasher}, buildFlasherMesh fuel f d = .error e → e = .fuel) ∧
      ∀ {l : Light}, buildLightInsertMesh fuel l d = .error e → e = .fuel := by
  constructor
  · intro f h
    unfold buildFlasherMesh at h
    split at h
    · cases h
    · cases h1 : getRgVertex2D fuel f.drag_points (detailLevelToAccuracy fTen) true with
      | error e' => rw [h1] at h; cases h; exact C61_no_panic h1
      | ok vs =>
        rw [h1] at h
        simp only [bind, Except.bind] at h
        split at h
        · cases h
        · obtain ⟨cw, ts', -, h4, -⟩ := C60_polygon vs (by omega)
          rw [h4] at h
          dsimp only at h
          split at h <;> cases h
  · intro l h
    unfold buildLightInsertMesh at h
    split at h
    · cases h
    · cases h1 : getRgVertex2D fuel l.drag_points (detailLevelToAccuracy fTen) true with
      | error e' => rw [h1] at h; cases h; exact C61_no_panic h1
      | ok vs =>
        rw [h1] at h
        simp only [bind, Except.bind] at h
        split at h
        · cases h
        · obtain ⟨cw, ts', -, h4, -⟩ := C60_polygon vs (by omega)
          rw [h4] at h
          dsimp only at h
          split at h <;> cases h

/-- **C81**: the OBJ export, with the meshes the program makes: the file has the shapes of the items. The meshes in the
table itself must only use their own vertices. -/
theorem C81_obj {E : ExpandEnv} {A : ItemFns} {fuel : Nat} {o : ObjExportOptions} {vpx : VPX} {mtlFile : Str}
    {out : ObjExport} (h : exportObj E (itemStock A meshTables fuel).toStock fuel o vpx mtlFile = .ok out)
    (hp : ∀ p m, .primitive p ∈ vpx.gameitems → p.use_3d_mesh = true → p.readMesh E.Z = .ok (some m) →
      FacesInside m.vertices.length m.faces) :
    ∃ items, vpx.gameitems.mapM (itemBlocks E.Z (itemStock A meshTables fuel).toStock fuel o vpx) = .ok items ∧
      (((exportedShapes vpx.gamedata items).map fun b => b.vertices.length).sum < 2 ^ 32 →
        objects out.obj = expected E.sanitize o none false (exportedShapes vpx.gamedata items) ∧ loose out.obj = []) :=
  C70_scene h (C81_meshes_inside A fuel).toStockInside hp

/-- **C81**: the glTF export, with the meshes the program makes: every index of a mesh is in range. -/
theorem C81_gltf {E : GltfEnv} {A : ItemFns} {fuel : Nat} {o : GltfOptions} {vpx : VPX} {f : File} {bin : Bytes}
    (hS : E.S = itemStock A meshTables fuel) (h : gltfDocument E fuel o vpx = .ok (f, bin))
    (hp : ∀ p m, .primitive p ∈ vpx.gameitems → p.use_3d_mesh = true → p.readMesh E.Z = .ok (some m) →
      Scene.FacesInside m.vertices.length m.faces) (x : Gltf.Mesh) (hx : x ∈ f.meshes) (ps : List (F32 × F32 × F32))
    (hps : f.vec3s bin x.position = some ps) (hn : ps.length ≤ 2 ^ 32) :
    ∃ ts, f.triangles bin x.indices = some ts ∧ ∀ t ∈ ts, t.1 < ps.length ∧ t.2.1 < ps.length ∧ t.2.2 < ps.length :=
  C76_indices h (hS ▸ C81_meshes_inside A fuel) hp x hx ps hps hn

end

/-! ### Concrete cases, in IEEE arithmetic -/

/-- functions to show that the conditions can be met -/
def sampleFns : ItemFns where
  asin x := x
  atan2 _ _ := 0
  parse32 s := if s = "0".toList then some 0 else if s = "1".toList then some f32One else none

section
attribute [local instance] ieeeExact

/-- the sample environment with the meshes the program makes -/
def itemSample : GltfEnv := { gltfSample with S := itemStock sampleFns meshTables 10 }

/-- a table with a decal -/
def decalTable : VPX :=
  { sceneTable with
    gameitems := [.decal { Decal.default with
      name := "D".toList, decal_type := .Image, image := "Bitmap".toList, width := fTen, height := fFour }] }

/-- the conditions of `C81_gltf` are met: there is a document, and its first mesh, the decal, has four vertices and two
triangles -/
example : itemSample.S = itemStock sampleFns meshTables 10 ∧
    ((gltfDocument itemSample 10 .default decalTable).toOption.bind fun r => r.1.meshes[0]?.bind fun m =>
      (r.1.vec3s r.2 m.position).bind fun ps => (r.1.triangles r.2 m.indices).map fun ts => (m.name, ps.length, ts)) =
    some ("D".toList, 4, [(0, 2, 1), (2, 3, 1)]) := by
  refine ⟨rfl, ?_⟩
  decide +kernel

/-- and those of `C81_obj`: the plate of the spinner is the one of the table of the program -/
example : ((exportObj sampleExpand (itemStock sampleFns meshTables 10).toStock 10 .default sceneTable
    "t.mtl".toList).toOption.map fun out => (objects out.obj).map fun x => (x.name, x.triangles.length)) =
    some [("Table".toList, 2), ("P".toList, 12), ("SBracket".toList, 140), ("SPlate".toList, 304), ("Q".toList, 12)] := by decide +kernel

end
end Vpin
