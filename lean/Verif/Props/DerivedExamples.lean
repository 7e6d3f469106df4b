import Verif.Props.DerivedRead
import Verif.Props.WallMesh
import Verif.Props.ItemMesh
import Verif.Lemmas.ExpandSampleTable
/-
Examples for derived meshes.
-/
namespace Vpin
attribute [local instance] ieeeExact

/-- a wall with a mesh, a spinner, whose plate has always one, an animated primitive and a wall with one point -/
def derivedItems : List GameItemEnum :=
  [.wall { notchedWall with name := "notch".toList }, .spinner { Spinner.sample with name := "spin".toList },
   .primitive expandPrimitive, .wall Wall.sample]

def derivedTable : VPX :=
  { expandTable with
    gameitems := derivedItems
    gamedata := { expandTable.gamedata with gameitems_size := 4 } }

theorem notchedWall_json : notchedWall.JsonOk fun _ => True where
  threshold := by decide
  height_bottom := by decide
  height_top := by decide
  slingshot_force := by decide
  slingshot_threshold := by decide
  elasticity := by decide
  elasticity_falloff := by decide +kernel
  friction := by decide
  scatter := by decide
  disable_lighting_top_old := by decide +kernel
  disable_lighting_top := by decide +kernel
  disable_lighting_below := by decide +kernel
  drag_points := by
    intro p hp
    have : notchedWall.drag_points.all fun d => PlainF32 (fun _ => True) d.x ∧ PlainF32 (fun _ => True) d.y ∧
      PlainF32 (fun _ => True) d.z ∧ PlainF32 (fun _ => True) d.tex_coord := by decide +kernel
    have := of_decide_eq_true (List.all_eq_true.1 this p hp)
    exact ⟨this.1, this.2.1, this.2.2.1, this.2.2.2⟩

theorem derivedTable_ok : derivedTable.Expandable sampleExpand .Obj :=
  { expandTable_ok with
    items := by
      intro g hg
      have hg : g ∈ derivedItems := hg
      simp only [derivedItems, List.mem_cons, List.not_mem_nil, or_false] at hg
      rcases hg with rfl | rfl | rfl | rfl
      · exact ⟨{ notchedWall_json with }, fun p e => absurd e (not_primitive rfl p)⟩
      · exact ⟨{ Spinner.sample_json with }, fun p e => absurd e (not_primitive rfl p)⟩
      · exact ⟨(samplePrimitive_json.setFrames _ _).rename _, fun p e => by cases e; exact expandPrimitive_ok⟩
      · exact ⟨Wall.sample_json, fun p e => absurd e (not_primitive rfl p)⟩
    gamedata := { expandTable_ok.gamedata with json := GameData.sample_json.withParts _ _ _ _ _ _ _ _ _ _ }
    counts := ⟨rfl, rfl, rfl, rfl, rfl⟩ }

theorem derivedItems_computed : ∀ g ∈ derivedItems, g.MeshesComputed 6 := by
  intro g hg
  simp only [derivedItems, List.mem_cons, List.not_mem_nil, or_false] at hg
  have get : ∀ w : Wall, (buildWallMesh 6 w).toOption.isSome = true → ∃ m, buildWallMesh 6 w = .ok m := by
    intro w h
    cases hm : buildWallMesh 6 w with
    | error e => rw [hm] at h; cases h
    | ok m => exact ⟨m, rfl⟩
  rcases hg with rfl | rfl | rfl | rfl
  · exact get _ (by decide +kernel)
  · exact trivial
  · exact trivial
  · exact get _ (by decide +kernel)

theorem derivedTable_expands : ∃ fs0 fs1, expand sampleExpand .Obj "t".toList derivedTable [] = (.ok (), fs0) ∧
    expandDerived sampleExpand sampleFns meshTables 6 .Obj "t".toList derivedTable [] = (.ok (), fs1) := by
  obtain ⟨fs0, h0⟩ := C57_expand_succeeds sampleExpand .Obj "t".toList derivedTable [] derivedTable_ok (fun _ => rfl)
    (by decide +kernel) (by decide +kernel)
  obtain ⟨fs1, h1⟩ := (C89_succeeds sampleExpand sampleFns meshTables 6 .Obj "t".toList derivedTable []
    derivedTable_ok.imageNames derivedTable_ok.soundNames).2 ⟨⟨fs0, h0⟩, derivedItems_computed⟩
  exact ⟨fs0, fs1, h0, h1⟩

/-- the table is restored from a directory with derived meshes -/
example : ∃ fs1 t', expandDerived sampleExpand sampleFns meshTables 6 .Obj "t".toList derivedTable [] = (.ok (), fs1) ∧
    assemble sampleExpand "t".toList fs1 = .ok t' ∧ SameTable sampleExpand derivedTable t' := by
  obtain ⟨fs0, fs1, h0, h1⟩ := derivedTable_expands
  obtain ⟨t', h2, h3⟩ := C89_table_restored sampleExpand sampleFns meshTables 6 byteText_std .Obj "t".toList derivedTable
    [] fs1 derivedTable_ok (fun _ => rfl) h1
  exact ⟨fs1, t', h1, h2, h3⟩

/-- the file with the mesh of the wall and the one with the plate of the spinner are in it -/
example : ∃ fs0 fs1 m, expand sampleExpand .Obj "t".toList derivedTable [] = (.ok (), fs0) ∧
    expandDerived sampleExpand sampleFns meshTables 6 .Obj "t".toList derivedTable [] = (.ok (), fs1) ∧
    buildWallMesh 6 { notchedWall with name := "notch".toList } = .ok (some m) ∧
    fs1.get "t/gameitems/Wall.notch-generated.obj".toList
      = some (sampleExpand.obj.print (writeObj sampleExpand.T "notch".toList
        (m.raw.wrapped (.wall { notchedWall with name := "notch".toList })))) ∧
    (fs1.get "t/gameitems/Spinner.spin-plate-generated.obj".toList).isSome = true := by
  obtain ⟨fs0, fs1, h0, h1⟩ := derivedTable_expands
  obtain ⟨m, hm⟩ : ∃ m, buildWallMesh 6 { notchedWall with name := "notch".toList } = .ok (some m) := by
    have h2 : ((buildWallMesh 6 { notchedWall with name := "notch".toList }).toOption.bind id).isSome = true := by
      decide +kernel
    cases hm : buildWallMesh 6 { notchedWall with name := "notch".toList } with
    | error e => rw [hm] at h2; cases h2
    | ok r =>
      cases r with
      | none => rw [hm] at h2; cases h2
      | some m => exact ⟨m, rfl⟩
  refine ⟨fs0, fs1, m, h0, h1, hm, ?_⟩
  have hst : itemStems sampleExpand.U [] derivedItems = .ok ["Wall.notch".toList, "Spinner.spin".toList,
    "Primitive.Prim".toList, "Wall.na_me__".toList] := by decide +kernel
  obtain ⟨stems, e1, -, h2, -⟩ := C89_files_named sampleExpand sampleFns meshTables 6 .Obj "t".toList derivedTable [] fs0 fs1
    derivedTable_ok.imageNames derivedTable_ok.soundNames derivedTable_ok.fontNames (by decide +kernel) h0 h1
  have e1 : itemStems sampleExpand.U [] derivedItems = .ok stems := e1
  rw [hst] at e1
  cases e1
  constructor
  · exact (h2 (_, _) List.mem_cons_self).2 _ _ _ (.wall hm) (_, _) List.mem_cons_self
  · have h3 := (h2 (_, _) (List.mem_cons_of_mem _ List.mem_cons_self)).2 _ _ _ (.spinnerPlate rfl) (_, _)
      List.mem_cons_self
    exact (congrArg Option.isSome h3).trans rfl

/-- one triangle with upright normals -/
def uprightMesh : RawMesh :=
  ⟨[⟨0, 0, 0, 0, 0, 0x3f800000, 0, 0x3f800000⟩, ⟨0x3f800000, 0, 0, 0, 0, 0x3f800000, 0x3f800000, 0x3f000000⟩,
    ⟨0, 0x3f800000, 0, 0, 0, 0x3f800000, 0, 0⟩], [⟨0, 1, 2⟩]⟩

/-- vpin reads from the GLB file of a spinner other normals than it has written -/
example : ∃ fs, (∀ w ∈ meshFiles sampleExpand .Glb "Spinner.spin-plate-generated".toList "spinPlate".toList
      (uprightMesh.wrapped (.spinner Spinner.sample)), Files.get fs (joinPath "t".toList w.1) = some w.2) ∧
    ∃ bs, readMeshFile sampleExpand "t".toList fs .Glb "Spinner.spin-plate-generated".toList
      = .ok (3, bs, uprightMesh.faces) ∧ bs ≠ uprightMesh.vertices.flatMap Vertex.bytes := by
  obtain ⟨fs, hfs⟩ : ∃ fs : Files, fs = [(joinPath "t".toList "Spinner.spin-plate-generated.glb".toList,
      writeGlbFile sampleExpand.J "spinPlate".toList (uprightMesh.wrapped (.spinner Spinner.sample)))] := ⟨_, rfl⟩
  have hg : ∀ w ∈ meshFiles sampleExpand .Glb "Spinner.spin-plate-generated".toList "spinPlate".toList
      (uprightMesh.wrapped (.spinner Spinner.sample)), Files.get fs (joinPath "t".toList w.1) = some w.2 := by
    intro w hw
    have : w = ("Spinner.spin-plate-generated.glb".toList, writeGlbFile sampleExpand.J "spinPlate".toList
        (uprightMesh.wrapped (.spinner Spinner.sample))) := List.mem_singleton.1 hw
    rw [this, hfs]
    simp [Files.get]
  refine ⟨fs, hg, _, C89_gltf_normals_lost sampleExpand .Glb (by decide) "t".toList fs _ _ (.spinner Spinner.sample) rfl
    uprightMesh (fun f hf => by
      have : f = ⟨0, 1, 2⟩ := List.mem_singleton.1 hf
      subst this
      refine ⟨?_, ?_, ?_⟩ <;> decide) (show List.length _ < _ by decide +kernel) (by decide +kernel) hg, by decide +kernel⟩

theorem flatMap_if {α β : Type} {p : α → Prop} [DecidablePred p] {f : α → List β} {g : List β} {l : List α}
    (h : ∀ v ∈ l, p v) : l.flatMap (fun v => if p v then f v else g) = l.flatMap f := by
  induction l with
  | nil => rfl
  | cons a l ih =>
    rw [List.flatMap_cons, List.flatMap_cons, if_pos (h a List.mem_cons_self),
      ih fun v hv => h v (List.mem_cons_of_mem _ hv)]

/-- from its OBJ file the same mesh is read as it is -/
example : ∃ fs, readMeshFile sampleExpand "t".toList fs .Obj "Spinner.spin-plate-generated".toList
      = .ok (3, uprightMesh.vertices.flatMap Vertex.bytes, uprightMesh.faces) := by
  obtain ⟨fs, hfs⟩ : ∃ fs : Files, fs = [(joinPath "t".toList "Spinner.spin-plate-generated.obj".toList,
      sampleExpand.obj.print (writeObj sampleExpand.T "spinPlate".toList
        (uprightMesh.wrapped (.spinner Spinner.sample))))] := ⟨_, rfl⟩
  refine ⟨fs, ?_⟩
  have h := C89_obj_back sampleExpand byteText_std "t".toList fs "Spinner.spin-plate-generated".toList
    "spinPlate".toList (.spinner Spinner.sample) rfl uprightMesh ⟨trivial, ?_, ?_⟩ ?_
  · rw [h]
    have : ∀ v ∈ uprightMesh.vertices, [v.x, v.y, v.z, v.nx, v.ny, v.nz, v.tu, v.tv].all (fun x => !x.isNaN) = true ∧
        (flippedV sampleExpand.T v.tv).2 = true := by decide +kernel
    rw [flatMap_if this]
    rfl
  · intro f hf
    have : f = ⟨0, 1, 2⟩ := List.mem_singleton.1 hf
    subst this
    refine ⟨?_, ?_, ?_⟩ <;> decide
  · intro w hw
    obtain ⟨v, hv, rfl⟩ := List.mem_map.1 hw
    have : ∀ v ∈ uprightMesh.vertices, ∀ x ∈ [v.x, v.y, v.z.neg, v.nx, v.ny, v.nz.neg, v.tu], x.toF64.toF32 = x := by
      decide +kernel
    have := this v hv
    exact .inr ⟨exact_byteText (this _ (by simp)), exact_byteText (this _ (by simp)), exact_byteText (this _ (by simp)),
      exact_byteText (this _ (by simp)), exact_byteText (this _ (by simp)), exact_byteText (this _ (by simp)),
      exact_byteText (this _ (by simp))⟩
  · intro w hw
    have : w = ("Spinner.spin-plate-generated.obj".toList, sampleExpand.obj.print (writeObj sampleExpand.T
      "spinPlate".toList (uprightMesh.wrapped (.spinner Spinner.sample)))) := List.mem_singleton.1 hw
    rw [this, hfs]
    simp [Files.get]

/-- and as the mesh of a wall from its GLB file too -/
example : ∃ fs, readMeshFile sampleExpand "t".toList fs .Glb "Wall.w-generated".toList
      = .ok (3, uprightMesh.vertices.flatMap Vertex.bytes, uprightMesh.faces) := by
  obtain ⟨fs, hfs⟩ : ∃ fs : Files, fs = [(joinPath "t".toList "Wall.w-generated.glb".toList,
      writeGlbFile sampleExpand.J "w".toList (uprightMesh.wrapped (.wall Wall.sample)))] := ⟨_, rfl⟩
  refine ⟨fs, C89_drawn_back sampleExpand byteText_std .Glb "t".toList fs _ "w".toList (.wall Wall.sample) rfl
    uprightMesh (fun f hf => ?_) (show List.length _ < _ by decide +kernel) (by decide +kernel) ?_⟩
  · have : f = ⟨0, 1, 2⟩ := List.mem_singleton.1 hf
    subst this
    refine ⟨?_, ?_, ?_⟩ <;> decide
  · intro w hw
    have : w = ("Wall.w-generated.glb".toList, writeGlbFile sampleExpand.J "w".toList
        (uprightMesh.wrapped (.wall Wall.sample))) := List.mem_singleton.1 hw
    rw [this, hfs]
    simp [Files.get]

end Vpin
