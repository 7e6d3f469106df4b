import Verif.Model.GltfCollect
import Verif.Spec.GltfFile
/-
Which material a mesh of a glTF file has, and which images and materials of a table a name means.
-/
namespace Vpin

/-- the material of mesh `k` -/
def Gltf.File.materialOfMesh (f : Gltf.File) (k : Nat) : Option Gltf.Material := do
  let m ← f.meshes[k]?
  let j ← m.material
  f.materials[j]?

namespace Scene

/-- `x` is the last one of the list with the property -/
def IsLast {α : Type} (p : α → Prop) (l : List α) (x : α) : Prop := ∃ a b, l = a ++ x :: b ∧ p x ∧ ∀ y ∈ b, ¬ p y

/-- the image that the name of a texture means: of those with the same name in lower case the last -/
def TextureImage (E : GltfEnv) (vpx : VPX) (name : Str) (i : ImageData) : Prop :=
  IsLast (fun i => E.U.lower i.name = E.U.lower name) vpx.images i

/-- the bytes of the image file: as they are in the table, or, of a bitmap, as the PNG encoder makes them -/
def ImageFile (E : GltfEnv) (i : ImageData) (bytes : Bytes) : Prop :=
  (∃ j, i.jpeg = some j ∧ bytes = j.data) ∨
  (i.jpeg = none ∧ ∃ b, i.bits = some b ∧ E.png b i.width i.height = .ok (some bytes))

/-- the material of the table that a name means -/
def TableMaterial (g : GameData) (name : Str) (m : Material) : Prop :=
  ∃ l, g.materials = some l ∧ IsLast (fun m => m.name = name) l m

/-- the material of a table of the old kind that a name means -/
def OldTableMaterial (g : GameData) (name : Str) (m : SaveMaterial) : Prop :=
  g.materials = none ∧ IsLast (fun m => m.name = name) g.materials_old m

/-- the table has no material of this name -/
def NoTableMaterial (g : GameData) (name : Str) : Prop :=
  match g.materials with
  | some l => ∀ m ∈ l, m.name ≠ name
  | none => ∀ m ∈ g.materials_old, m.name ≠ name

/-- the table has an image for its playfield -/
def HasPlayfieldImage (vpx : VPX) : Prop :=
  vpx.gamedata.image ≠ [] ∧ ∃ i ∈ vpx.images, eqIgnoreAsciiCase i.name vpx.gamedata.image = true

/-- the mesh gets nothing but its material and its texture from the item: it is no ball, not tinted, lets no light
through -/
def Plain (m : NamedMesh) : Prop := m.isBall = false ∧ m.tint = none ∧ m.transmission = none

/-- the image lets through what is behind it: it says so or its pixels do -/
def SeeThrough (E : GltfEnv) (i : ImageData) : Prop :=
  i.is_opaque = some false ∨ (i.is_opaque = none ∧ E.seeThrough i = true)

/-- the mesh has no material of the table -/
def Unpainted (g : GameData) (m : NamedMesh) : Prop :=
  Plain m ∧ ∀ n, m.material = some n → NoTableMaterial g n

end Scene
end Vpin
