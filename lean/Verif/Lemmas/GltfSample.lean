import Verif.Props.ObjExport
import Verif.Spec.GltfItems
import Verif.Model.GltfDoc
/-! A table and an environment to show that the conditions of the theorems about the glTF export can be met. -/
namespace Vpin

/-- one triangle -/
def oneTriangle : RawMesh :=
  ⟨[⟨0, 0, 0, 0, 0, f32One, 0, 0⟩, ⟨f32One, 0, 0, 0, 0, f32One, f32One, 0⟩, ⟨0, f32One, fTwo, 0, 0, f32One, 0, f32One⟩],
    [⟨0, 1, 2⟩]⟩

def gltfStock : GltfStock :=
  { exampleStock with
    flasher := fun _ _ => some (oneTriangle, ⟨f32One, fTwo, 0⟩)
    light := fun _ => some (some oneTriangle, some oneTriangle)
    insert := fun _ _ => none
    decal := fun _ => none
    ball := fun _ => oneTriangle }

theorem oneTriangle_inside : Scene.MeshInside oneTriangle := by
  intro f hf i hi
  simp only [oneTriangle, List.mem_cons, List.not_mem_nil, or_false] at hf
  subst hf
  simp only [List.mem_cons, List.not_mem_nil, or_false] at hi
  show 0 ≤ i ∧ i < 3
  omega

theorem gltfStock_inside : Scene.GltfStockInside gltfStock where
  toStockInside := exampleStock_inside
  flasher f d m c h := by cases h; exact oneTriangle_inside
  light l a b h m hm := by
    cases h
    rcases hm with hm | hm <;> (cases hm; exact oneTriangle_inside)
  insert l d m c h := by cases h
  decal d m h := by cases h
  ball _ := oneTriangle_inside

def gltfSample : GltfEnv where
  U := asciiUnicode
  Z := plainZlib
  S := gltfStock
  png b _ _ := .ok (some (0x89 :: b))
  seeThrough _ := false
  extras i := .obj [(key!"name", .str i.name)]
  tableExtras g := .obj [(key!"name", .str g.name)]
  extras_some _ h := by cases h
  tableExtras_some _ h := by cases h
  cameras _ := [⟨"Desktop".toList, ⟨0, f32One, fTwo⟩, (0, 0, 0, f32One), f32One, f0p1, fTen⟩]
  materialOrder l := l.reverse
  materialOrder_perm l := List.reverse_perm l
  layerOrder l := l.reverse
  layerOrder_perm l := List.reverse_perm l

/-- the table of the OBJ export with a light of the general illumination on a layer and a ball, and a hidden spinner -/
def gltfTable : VPX :=
  { sceneTable with
    gameitems := sceneTable.gameitems ++
      [.light { Light.default with
         name := "GI_1".toList, show_bulb_mesh := true, shared := { Light.default.shared with editor_layer := some 2 } },
       .spinner { Spinner.default with name := "Hidden".toList, is_visible := false },
       .ball { Ball.default with name := "Ball".toList, image_decal := "Bitmap".toList, decal_mode := true }] }

end Vpin
