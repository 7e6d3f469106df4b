import Verif.Props.GltfItems
import Verif.Props.ObjExport
import Verif.Spec.PlayfieldShape
/-!
# C70, C79: the shape of the playfield
-/
namespace Vpin
open Arith Scene

theorem playfield_shape (l t r b : F32) :
    IsPlayfieldShape l t r b (playfieldMesh l t r b).vertices (playfieldMesh l t r b).faces where
  places := rfl
  up := by
    intro v hv
    simp only [playfieldMesh, List.mem_cons, List.not_mem_nil, or_false] at hv
    rcases hv with rfl | rfl | rfl | rfl <;> rfl
  picture := rfl
  covers := by
    intro n p q hn hp hp' hq hq'
    by_cases h : p + q ≤ n
    · refine ⟨⟨0, 1, 2⟩, by simp [playfieldMesh], ?_⟩
      simp only [InTriangle, sideOf, squareCorner]
      omega
    · refine ⟨⟨2, 1, 3⟩, by simp [playfieldMesh], ?_⟩
      simp only [InTriangle, sideOf, squareCorner]
      omega
  once := by
    simp only [playfieldMesh, List.pairwise_cons, List.mem_cons, List.not_mem_nil, or_false]
    refine ⟨?_, by simp, List.Pairwise.nil⟩
    rintro g rfl n p q hn
    simp only [InsideTriangle, sideOf, squareCorner]
    omega

section
variable [Arith]

omit [Arith] in
/-- **C70**: the first shape of the OBJ file is the playfield, a rectangle as large as the table with the table's
name, material and picture. -/
theorem C70_playfield (g : GameData) (items : List (List Block)) :
    ∃ b rest, exportedShapes g items = b :: rest ∧ b.name = g.name ∧ b.material = some g.playfield_material ∧
      b.texture = (if g.image = [] then none else some g.image) ∧
      IsPlayfieldShape g.left g.top g.right g.bottom b.vertices b.faces :=
  ⟨playfieldBlock g, items.flatten.filter solid, rfl, rfl, rfl,
    by unfold playfieldBlock nonEmpty; cases g.image <;> rfl, playfield_shape _ _ _ _⟩

/-- **C79**: if no primitive is called playfield_mesh, the last mesh of the scene is such a rectangle. -/
theorem C79_playfield_shape {E : GltfEnv} {fuel : Nat} {o : GltfOptions} {vpx : VPX} {meshes : List NamedMesh}
    {groups : List ItemGroup} (h : collectMeshes E fuel o vpx = .ok (meshes, groups))
    (hp : ∀ p, .primitive p ∈ vpx.gameitems → p.name.map asciiLower ≠ "playfield_mesh".toList) :
    ∃ m rest, meshes = rest ++ [m] ∧ m.name = "playfield_mesh".toList ∧ m.translation = none ∧
      IsPlayfieldShape vpx.gamedata.left vpx.gamedata.top vpx.gamedata.right vpx.gamedata.bottom m.vertices m.faces := by
  obtain ⟨parts, -, -, -, hno⟩ := C79_scene h
  obtain ⟨m, h1, h2, -, h4, h5, h6⟩ := hno (by
    rintro ⟨i, p, hi, hn, -⟩
    exact hp p (List.mem_of_getElem? hi) hn)
  exact ⟨m, parts.flatten, h1, h2, h4, by rw [h5, h6]; exact playfield_shape _ _ _ _⟩

end

/-- two triangles that overlap do not make a playfield: the point (0.5, 0.2) is in both -/
example (l t r b : F32) :
    ¬ IsPlayfieldShape l t r b (playfieldMesh l t r b).vertices [⟨0, 1, 2⟩, ⟨0, 1, 3⟩] := by
  intro h
  have := List.pairwise_cons.1 h.once
  have := this.1 ⟨0, 1, 3⟩ (by simp) 10 5 2 (by decide)
  simp only [InsideTriangle, sideOf, squareCorner] at this
  omega

/-- a table without items has the rectangle as its only shape -/
example (g : GameData) : ∃ b, exportedShapes g [] = [b] ∧ IsPlayfieldShape g.left g.top g.right g.bottom b.vertices b.faces := by
  obtain ⟨b, rest, h, -, -, -, hs⟩ := C70_playfield g []
  cases rest with
  | nil => exact ⟨b, h, hs⟩
  | cons => cases h

/-- a table without items can be exported, and its scene is the rectangle -/
example [Arith] (E : GltfEnv) (o : GltfOptions) (vpx : VPX) (hi : vpx.gameitems = []) :
    ∃ meshes groups m, collectMeshes E 10 o vpx = .ok (meshes, groups) ∧ meshes = [m] ∧
      IsPlayfieldShape vpx.gamedata.left vpx.gamedata.top vpx.gamedata.right vpx.gamedata.bottom m.vertices m.faces := by
  have h : ∃ m groups, collectMeshes E 10 o vpx = .ok ([m], groups) := by
    unfold collectMeshes
    rw [hi]
    exact ⟨_, _, rfl⟩
  obtain ⟨m, groups, h⟩ := h
  obtain ⟨m', rest, h1, -, -, hs⟩ := C79_playfield_shape h (by rw [hi]; intro p hp; cases hp)
  have : rest = [] ∧ m = m' := by
    cases rest with
    | nil => exact ⟨rfl, by simpa using h1⟩
    | cons a t => simp at h1
  exact ⟨[m], groups, m, h, rfl, this.2 ▸ hs⟩

end Vpin
