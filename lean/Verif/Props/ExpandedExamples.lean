import Verif.Props.Expanded
import Verif.Props.ExpandedFiles
/-
Examples for the properties of expanded directories, and tables for which they fail.
-/
namespace Vpin

/-- an empty table -/
def emptyTable : VPX where
  custominfotags := []
  info := TableInfo.new
  version := ⟨1072⟩
  gamedata := GameData.default
  gameitems := []
  images := []
  sounds := []
  fonts := []
  collections := []

def namedPrimitive (n : String) (p : Primitive) : GameItemEnum := .primitive { p with name := n.toList }

/-- a primitive with an animation of one frame -/
def oneFrame : Primitive := samplePrimitive.setFrames plainZlib [[⟨1, 2, 3, 4, 5, 6⟩, ⟨7, 8, 9, 10, 11, 12⟩]]

def namedImage (n : String) : ImageData :=
  { ImageData.sample with name := n.toList, link := none, alpha_test_value := 0 }

theorem calm_short {U : Unicode} {n : Str} (h1 : n ≠ "json".toList) (h2 : n.length < 6) :
    n ≠ "json".toList ∧ ¬ AnimName U n := ⟨h1, short_not_anim h2⟩

/-- the primitives of the sample table -/
theorem expandItems_calm : ∀ p, .primitive p ∈ expandItems → p.name ≠ "json".toList ∧ ¬ AnimName sampleExpand.U p.name := by
  intro p hp
  simp only [expandItems, List.mem_cons, List.not_mem_nil, or_false] at hp
  rcases hp with e | e | e | e | e
  · cases e; exact calm_short (by decide) (by decide)
  · exact absurd e.symm (not_primitive rfl p)
  · cases e; exact calm_short (by decide) (by decide)
  · cases e; exact calm_short (by decide) (by decide)
  · exact absurd e.symm (not_primitive rfl p)

/-! ### C42 -/

/-- five items, three of which are primitives with the same name, one of them animated -/
example : ((writesOf (writeItems sampleExpand .Gltf "t".toList expandItems)).map (·.1)).Nodup :=
  C42_item_files_differ sampleExpand .Gltf "t".toList expandItems expandItems_calm

/-- **C42 fails** for an animated primitive `X` and a primitive `X_anim_0`: the frame of one and the mesh of the other
are in the same file, -/
theorem C42_frame_collides_counterexample :
    ¬ ((writesOf (writeItems sampleExpand .Obj "t".toList
      [namedPrimitive "X" oneFrame, namedPrimitive "X_anim_0" samplePrimitive])).map (·.1)).Nodup := by
  decide +kernel

/-- and a primitive `X` without animation gets one when the table is read back. -/
theorem C42_mesh_becomes_frame_counterexample :
    (match readItems sampleExpand "t".toList (runSteps (writeItems sampleExpand .Obj "t".toList
        [namedPrimitive "X" samplePrimitive, namedPrimitive "X_anim_0" samplePrimitive]) []).2 with
      | .ok [.primitive p, _] => p.compressed_animation_vertices_data.map List.length
      | _ => none) = some 1 := by
  decide +kernel

/-- A primitive named `json` loses its mesh. -/
theorem C42_named_json_counterexample :
    samplePrimitive.compressed_vertices_data.isSome = true ∧
    (match readItems sampleExpand "t".toList (runSteps (writeItems sampleExpand .Obj "t".toList
        [namedPrimitive "json" samplePrimitive]) []).2 with
      | .ok [.primitive p] => p.compressed_vertices_data.isSome
      | _ => true) = false := by
  decide +kernel

/-! ### C37 -/

/-- a schedule that is not sequential: the first write of the second item comes before all others -/
example : ∃ steps, WriteItemsParallel sampleExpand .Obj "t".toList expandItems steps ∧
    steps ≠ writeItems sampleExpand .Obj "t".toList expandItems ∧
    (runSteps steps []).1 = .ok () ∧
    ∀ p, (runSteps steps []).2.get p = (runSteps (writeItems sampleExpand .Obj "t".toList expandItems) []).2.get p := by
  have h1 : itemStems sampleExpand.U [] expandItems = .ok ["Primitive.Prim".toList, "Wall.na_me__".toList,
    "Primitive.PRIM__1".toList, "Primitive.prim__2".toList, "Wall.na_me____1".toList] := by decide +kernel
  have hp : WriteItemsParallel sampleExpand .Obj "t".toList expandItems _ :=
    ⟨_, _, h1, Interleaving.step (before := [(itemTask sampleExpand .Obj "Primitive.Prim".toList
      (.primitive expandPrimitive)).1]) (Interleaving.flatten _), rfl⟩
  refine ⟨_, hp, ?_, ?_, (C37_any_schedule sampleExpand .Obj "t".toList expandItems expandItems_calm _ hp []).2⟩
  · intro e
    exact absurd (congrArg (fun l => (writesOf l).map (·.1)) e) (by decide +kernel)
  · rw [(C37_any_schedule sampleExpand .Obj "t".toList expandItems expandItems_calm _ hp []).1]
    decide +kernel

/-- **C37 fails** if two items have the same file: which of them stays depends on the schedule. -/
theorem C37_collision_counterexample : ∃ steps,
    WriteItemsParallel sampleExpand .Obj "t".toList
      [namedPrimitive "X" oneFrame, namedPrimitive "X_anim_0" samplePrimitive] steps ∧
    (runSteps steps []).2.get "t/gameitems/Primitive.X_anim_0.obj".toList ≠
      (runSteps (writeItems sampleExpand .Obj "t".toList
        [namedPrimitive "X" oneFrame, namedPrimitive "X_anim_0" samplePrimitive]) []).2.get
          "t/gameitems/Primitive.X_anim_0.obj".toList := by
  have h1 : itemStems sampleExpand.U [] [namedPrimitive "X" oneFrame, namedPrimitive "X_anim_0" samplePrimitive]
      = .ok ["Primitive.X".toList, "Primitive.X_anim_0".toList] := by decide +kernel
  have hp : WriteItemsParallel sampleExpand .Obj "t".toList
      [namedPrimitive "X" oneFrame, namedPrimitive "X_anim_0" samplePrimitive] _ :=
    ⟨_, _, h1, Interleaving.step (before := [(itemTask sampleExpand .Obj "Primitive.X".toList
      (namedPrimitive "X" oneFrame)).1]) (Interleaving.step (before := [(itemTask sampleExpand .Obj
      "Primitive.X".toList (namedPrimitive "X" oneFrame)).1]) (Interleaving.flatten _)), rfl⟩
  exact ⟨_, hp, by decide +kernel⟩

/-! ### C40 -/

theorem not_dedup {n a : Str} {k : Nat} (h : 'p' ∉ n) : n ≠ a ++ "_dedup".toList ++ decimal k := by
  intro e
  refine h (e ▸ ?_)
  exact List.mem_append_left _ (List.mem_append_right _ (by decide))

/-- images with the same name but for the case of letters -/
example : imageFiles sampleExpand [namedImage "ab", namedImage "AB", namedImage "a/b", namedImage "ab"]
      = ["ab.png".toList, "AB_dedup1.png".toList, "a/b_dedup2.png".toList, "ab_dedup3.png".toList] ∧
    (imageFiles sampleExpand [namedImage "ab", namedImage "AB", namedImage "a/b", namedImage "ab"]).Nodup := by
  refine ⟨by decide +kernel, C40_image_files_differ sampleExpand _ ?_⟩
  intro s hs a k
  refine not_dedup ?_
  have : ∀ s ∈ [namedImage "ab", namedImage "AB", namedImage "a/b", namedImage "ab"],
      'p' ∉ sampleExpand.sanitize s.name := by decide +kernel
  exact this s hs

example : (soundFiles sampleExpand expandTable.sounds).Nodup := by
  refine C40_sound_files_differ sampleExpand _ (by decide +kernel) ?_
  intro s hs a k
  refine not_dedup ?_
  have : ∀ s ∈ expandTable.sounds, 'p' ∉ sampleExpand.sanitize s.name := by decide +kernel
  exact this s hs

/-- **C40 fails** for images named `a`, `a` and `a_dedup1`: the table cannot be expanded. -/
theorem C40_dedup_collides_counterexample :
    (expand sampleExpand .Obj "t".toList
      { emptyTable with images := [namedImage "a", namedImage "a", namedImage "a_dedup1"] } []).1 = .error .io := by
  decide +kernel

/-! ### C41 -/

def namedFont (n : String) (data : Bytes) : FontData := { FontData.sample with name := n.toList, data := data }

example : readFonts sampleExpand "t".toList (runSteps (writeFonts sampleExpand "t".toList
    [namedFont "A" [1], namedFont "B" [2]]) []).2 = .ok [namedFont "A" [1], namedFont "B" [2]] :=
  C41_fonts_restored sampleExpand _ _ _ (by decide +kernel) (by decide +kernel)

/-- **C41 fails** for two fonts whose names differ by a character that is not in file names: both get the data of the
second. -/
theorem C41_overwritten_counterexample :
    readFonts sampleExpand "t".toList (runSteps (writeFonts sampleExpand "t".toList
      [namedFont "A/B" [1], namedFont "AB" [2]]) []).2 = .ok [namedFont "A/B" [2], namedFont "AB" [2]] := by
  rw [C41_last_font_wins sampleExpand _ _ _ (by decide +kernel)]
  decide +kernel

/-! ### C58 -/

/-- the sample table, into a directory with a script, fails or succeeds only with changes in that directory -/
example (p : Str) (fs : Files)
    (h : (expand sampleExpand .Obj "t".toList expandTable fs).2.get p ≠ fs.get p) : InExpandedDir "t".toList p :=
  C58_only_in_directory sampleExpand .Obj _ expandTable fs expandTable_ok.imageNames expandTable_ok.soundNames
    expandTable_ok.fontNames p h

example : ∃ p, (expand sampleExpand .Obj "t".toList expandTable []).2.get p ≠ Files.get [] p :=
  ⟨"t/version.txt".toList, by decide +kernel⟩

example : (∀ f ∈ imageFiles sampleExpand expandTable.images, '/' ∉ f) ∧
    (∀ f ∈ soundFiles sampleExpand expandTable.sounds, '/' ∉ f) ∧
    ∀ f ∈ fontFiles sampleExpand expandTable.fonts, '/' ∉ f :=
  C58_names_suffice sampleExpand expandTable (by decide +kernel) (by decide +kernel) (by decide +kernel)

/-- **C58 fails** for two images named `/etc/x`: the second is written to `/etc`. -/
theorem C58_escapes_counterexample :
    ((expand sampleExpand .Obj "t".toList
      { emptyTable with images := [namedImage "/etc/x", namedImage "/etc/x"] } []).2.get
        "/etc/x_dedup1.png".toList).isSome = true ∧ ¬ InExpandedDir "t".toList "/etc/x_dedup1.png".toList := by
  refine ⟨by decide +kernel, ?_⟩
  rintro ⟨f, -, h | ⟨d, -, h⟩⟩ <;> exact absurd (List.cons.inj h).1 (by decide)

/-! ### C59 -/

/-- expanding into a directory that has an image of the same name fails and keeps that image -/
example : (expand sampleExpand .Obj "t".toList { emptyTable with images := [namedImage "a"] }
      [("t/images/a.png".toList, [7])]).1 = .error .io ∧
    (expand sampleExpand .Obj "t".toList { emptyTable with images := [namedImage "a"] }
      [("t/images/a.png".toList, [7])]).2.get "t/images/a.png".toList = some [7] :=
  ⟨by decide +kernel, C59_existing_kept sampleExpand .Obj "t".toList _ _ (by decide +kernel) "a.png".toList (by decide)
    _ (.inl rfl) [7] (by decide +kernel)⟩

/-- Other files are overwritten: the script, -/
theorem C59_script_overwritten_counterexample :
    (expand sampleExpand .Obj "t".toList emptyTable [("t/script.vbs".toList, [7])]).1 = .ok () ∧
    (expand sampleExpand .Obj "t".toList emptyTable [("t/script.vbs".toList, [7])]).2.get "t/script.vbs".toList
      = some [] := by
  decide +kernel

/-- and the mesh of a primitive, also if expanding fails later. -/
theorem C59_mesh_overwritten_counterexample :
    (expand sampleExpand .Obj "t".toList
      { emptyTable with gameitems := [namedPrimitive "X" samplePrimitive], images := [namedImage "a"] }
      [("t/gameitems/Primitive.X.obj".toList, [7]), ("t/images/a.png".toList, [7])]).1 = .error .io ∧
    (expand sampleExpand .Obj "t".toList
      { emptyTable with gameitems := [namedPrimitive "X" samplePrimitive], images := [namedImage "a"] }
      [("t/gameitems/Primitive.X.obj".toList, [7]), ("t/images/a.png".toList, [7])]).2.get
        "t/gameitems/Primitive.X.obj".toList ≠ some [7] := by
  decide +kernel

/-! ### C57 -/

/-- **C57 fails** in a directory that is not empty: materials of another table are read. -/
theorem C57_stale_materials_counterexample :
    (expand sampleExpand .Obj "t".toList emptyTable
      [("t/materials.json".toList, writeJson sampleExpand.J (jVec jMaterial) [Material.default])]).1 = .ok () ∧
    (match assemble sampleExpand "t".toList (expand sampleExpand .Obj "t".toList emptyTable
        [("t/materials.json".toList, writeJson sampleExpand.J (jVec jMaterial) [Material.default])]).2 with
      | .ok t => t.gamedata.materials
      | .error _ => none) = some [Material.default] := by
  decide +kernel

end Vpin
