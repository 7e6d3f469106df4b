import Verif.Spec.GltfParts
import Verif.Spec.GltfFile
/-
The nodes of an item in the glTF scene.
-/
namespace Vpin.Scene
open Vpin

/-- the lights of the general illumination: those whose names begin with gi, but not on the backglass -/
def giLights (lower : Str → Str) (items : List GameItemEnum) : List Light :=
  items.filterMap fun
    | .light l => if l.is_backglass = false ∧ (lower l.name).take 2 = "gi".toList then some l else none
    | _ => none

/-- the nodes of the item of a name: those of its meshes, and that of its light in the general illumination. The nodes of
the meshes are the first ones, then come two for the lights of the table and then those of the general illumination. -/
def nodesOf (meshes : List NamedMesh) (lights : List Light) (name : Str) : List Nat :=
  (meshes.zipIdx.filterMap fun m => if m.1.group = some name then some m.2 else none) ++
    (lights.zipIdx.filterMap fun l => if l.1.name = name then some (meshes.length + 2 + l.2) else none)

/-- a node is a child of the node of its layer, and that is a child of the root; without a layer it is itself a child of
the root. The node of a layer has its name and nothing of its own. -/
def InLayer (f : Gltf.File) (layerNode : Str → Nat) (layer : Option Str) (t : Nat) : Prop :=
  ∃ root r, f.scenes[f.scene]? = some [root] ∧ f.nodes[root]? = some r ∧
    layer.elim (t ∈ r.children.getD []) fun l =>
      layerNode l ∈ r.children.getD [] ∧ ∃ p, f.nodes[layerNode l]? = some p ∧ p.name = l ∧ p.mesh = none ∧
        p.light = none ∧ p.camera = none ∧ p.translation = none ∧ p.rotation = none ∧ p.scale = none ∧
        p.visible = none ∧ t ∈ p.children.getD []

end Vpin.Scene
