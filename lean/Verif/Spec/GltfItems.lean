import Verif.Spec.SceneItems
import Verif.Model.GltfCollect
/-
Meshes of the glTF export whose faces only use their own vertices.
-/
namespace Vpin.Scene

open Vpin

/-- the meshes that are not modelled only use their own vertices -/
structure GltfStockInside (S : GltfStock) : Prop extends StockInside S.toStock where
  flasher : ∀ f d m c, S.flasher f d = some (m, c) → MeshInside m
  light : ∀ l a b, S.light l = some (a, b) → ∀ m, a = some m ∨ b = some m → MeshInside m
  insert : ∀ l d m c, S.insert l d = some (m, c) → MeshInside m
  decal : ∀ d m, S.decal d = some m → MeshInside m
  ball : ∀ b, MeshInside (S.ball b)

end Vpin.Scene
