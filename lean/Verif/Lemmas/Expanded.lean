import Verif.Lemmas.ExpandedRead
import Verif.Lemmas.TableJson
import Verif.Props.Version
/-
All files of an expanded table, and the table read from them.
-/
namespace Vpin
variable (E : ExpandEnv)

/-- a file beside the directories, if it is written -/
def fileSeg (n : String) (o : Option Bytes) : Str × List (Str × Bytes) :=
  (n.toList, (o.map fun b => (n.toList, b)).toList)

/-- the files of a directory -/
def dirSeg (d : String) (l : List (Str × Bytes)) : Str × List (Str × Bytes) := (d.toList, l)

def GameData.oldFile (g : GameData) : Option Bytes :=
  match g.materials with
  | some _ => none
  | none => some (writeJson E.J (jVec jSaveMaterial) g.materials_old)

def GameData.physicsFile (g : GameData) : Option Bytes :=
  match g.materials with
  | some _ => none
  | none => g.materials_physics_old.map (writeJson E.J (jVec jSavePhysicsMaterial))

/-- the files of the items -/
def itemSeg (fmt : MeshFormat) (zs : List (Str × GameItemEnum)) : List (Str × Bytes) :=
  (itemsFiles E fmt zs).map fun w => ("gameitems".toList ++ '/' :: w.1, w.2)

/-- all files -/
def tableSegs (fmt : MeshFormat) (t : VPX) (zs : List (Str × GameItemEnum)) (code : Bytes) :
    List (Str × List (Str × Bytes)) :=
  [fileSeg "version.txt" (some (encodeUtf8 t.version.toText)),
   fileSeg "screenshot.png" t.info.screenshot,
   fileSeg "info.json" (some (writeJson E.J (jInfo none) (t.info, t.custominfotags))),
   fileSeg "collections.json" (some (writeJson E.J (jVec jCollection) t.collections)),
   fileSeg "gameitems.json" (some (writeJson E.J (jVec jGameItemInfo) (zs.map fun x => x.2.info (itemFile x.1)))),
   dirSeg "gameitems" (itemSeg E fmt zs),
   fileSeg "images.json" (some (writeJson E.J (jVec jImage) ((namedImages E t.images).map fun x => x.1.entry E x.2))),
   dirSeg "images" (guardedFiles (imageBlocks E t.images)),
   fileSeg "sounds.json" (some (writeJson E.J (jVec jSound)
     ((namedSounds E t.sounds).map fun x => { SoundDataJson.ofSound x.1 with name_dedup := x.2 }))),
   dirSeg "sounds" (guardedFiles (soundBlocks E t.sounds)),
   fileSeg "fonts.json" (some (writeJson E.J (jVec jFontData) t.fonts)),
   dirSeg "fonts" (fontSeg E t.fonts),
   fileSeg "gamedata.json" (some (writeJson E.J jGameData t.gamedata)),
   fileSeg "script.vbs" (some code),
   fileSeg "materials.json" (t.gamedata.materials.map (writeJson E.J (jVec jMaterial))),
   fileSeg "materials-old.json" (t.gamedata.oldFile E),
   fileSeg "materials-physics-old.json" (t.gamedata.physicsFile E),
   fileSeg "renderprobes.json" (t.gamedata.render_probes.map (writeJson E.J (jVec jRenderProbe)))]

/-! ### The steps -/

theorem writesOf_json {α : Type} (root : Str) (n : String) (h : n.toList.head? ≠ some '/') (c : Codec α) (a : α)
    (l : List FsStep) : writesOf (jsonStep E root n c a :: l) = (under root n.toList, writeJson E.J c a) :: writesOf l := by
  unfold jsonStep
  rw [joinPath_under h]; rfl

theorem firstError_writes : ∀ ts : List Task, writesOf (firstError ts) = []
  | [] => rfl
  | (_, .ok _) :: rest => firstError_writes rest
  | (_, .error e) :: _ => rfl

theorem firstError_nil : ∀ ts : List Task, (∀ t ∈ ts, t.2 = .ok ()) → firstError ts = []
  | [], _ => rfl
  | (l, r) :: rest, h => by
    have h1 : r = .ok () := h _ List.mem_cons_self
    subst h1
    exact firstError_nil rest fun t ht => h t (List.mem_cons_of_mem _ ht)

theorem absents_writes {α : Type} (p : α → Str) : ∀ l : List α, writesOf (l.map fun x => .absent (p x)) = []
  | [] => rfl
  | _ :: l => absents_writes p l

theorem task_plain {fmt : MeshFormat} {n : Str} {g : GameItemEnum} (hn : '/' ∉ n) {f : Str}
    (h : TaskFile E fmt n g f) : '/' ∉ f := by
  rcases h with rfl | ⟨p, m, -, -, e, he, h⟩
  · exact fileName_no_slash hn (by decide)
  · have hp := exts_plain fmt e he
    rcases h with rfl | ⟨i, rfl, -⟩
    · exact fileName_no_slash hn hp.2.1
    · exact fileName_no_slash (frameStem_no_slash hn i) hp.2.1

theorem itemsFiles_plain {fmt : MeshFormat} {zs : List (Str × GameItemEnum)} (h : Stems E fmt zs) :
    ∀ w ∈ itemsFiles E fmt zs, '/' ∉ w.1 := by
  intro w hw
  obtain ⟨x, hx, hf⟩ := mem_itemsFiles E h (List.mem_map_of_mem (f := (·.1)) hw)
  exact task_plain E (h.stem x hx).no_slash hf

theorem writesOf_items {fmt : MeshFormat} (root : Str) {items : List GameItemEnum} {stems : List Str}
    (hst : itemStems E.U [] items = .ok stems) (h : Stems E fmt (stems.zip items)) :
    writesOf (writeItems E fmt root items) =
      (under root "gameitems.json".toList,
        writeJson E.J (jVec jGameItemInfo) ((stems.zip items).map fun x => x.2.info (itemFile x.1))) ::
      (itemSeg E fmt (stems.zip items)).map fun w => (under root w.1, w.2) := by
  unfold writeItems writeItemTasks
  rw [hst]
  dsimp only
  rw [writesOf_append, writesOf_append, writesOf_append, absents_writes, firstError_writes, List.append_nil,
    List.nil_append, writesOf_json E root _ (by decide)]
  refine congrArg (List.cons _) ?_
  show writesOf (List.flatMap _ _) = _
  have e : ((stems.zip items).map fun x => itemTask E fmt x.1 x.2).flatMap (fun t => t.1.map fun w =>
      FsStep.write (joinPath (joinPath root "gameitems".toList) w.1) w.2)
      = (itemsFiles E fmt (stems.zip items)).map fun w => .write (joinPath (joinPath root "gameitems".toList) w.1) w.2 := by
    unfold itemsFiles
    rw [List.flatMap_map, List.map_flatMap]
  refine (congrArg writesOf e).trans ?_
  rw [writesOf_writes]
  unfold itemSeg
  rw [List.map_map]
  refine List.map_congr_left fun w hw => ?_
  rw [joinPath_two (d := "gameitems".toList) (by decide) (itemsFiles_plain E h w hw)]
  rfl

theorem writesOf_materials (root : Str) (g : GameData) : writesOf (writeMaterials E root g)
    = ((fileSeg "materials.json" (g.materials.map (writeJson E.J (jVec jMaterial)))).2
      ++ (fileSeg "materials-old.json" (g.oldFile E)).2
      ++ (fileSeg "materials-physics-old.json" (g.physicsFile E)).2).map fun w => (under root w.1, w.2) := by
  unfold writeMaterials GameData.oldFile GameData.physicsFile fileSeg
  cases g.materials with
  | some ms =>
    dsimp only
    rw [writesOf_json E root _ (by decide)]
    rfl
  | none =>
    dsimp only
    rw [writesOf_json E root _ (by decide)]
    cases g.materials_physics_old with
    | none => rfl
    | some ps =>
      dsimp only
      rw [writesOf_json E root _ (by decide)]
      rfl

theorem writesOf_table {fmt : MeshFormat} (root : Str) {t : VPX} {stems : List Str} {code : Bytes}
    (hst : itemStems E.U [] t.gameitems = .ok stems) (h : Stems E fmt (stems.zip t.gameitems))
    (hi : ∀ f ∈ imageFiles E t.images, '/' ∉ f) (hs : ∀ f ∈ soundFiles E t.sounds, '/' ∉ f)
    (hf : ∀ f ∈ fontFiles E t.fonts, '/' ∉ f) (hc : t.gamedata.code.toBytes = .ok code) :
    writesOf (expandSteps E fmt root t)
      = ((tableSegs E fmt t (stems.zip t.gameitems) code).flatMap (·.2)).map fun w => (under root w.1, w.2) := by
  unfold expandSteps tableSteps
  simp only [writesOf_append]
  rw [writesOf_items E root hst h, writeImages_eq E root _ hi, writeSounds_eq E root _ hs, writesOf_materials E]
  have e1 : writesOf [FsStep.write (joinPath root "version.txt".toList) (encodeUtf8 t.version.toText)]
      = [(under root "version.txt".toList, encodeUtf8 t.version.toText)] := by
    rw [joinPath_under (by decide)]; rfl
  have e2 : writesOf (writeScreenshot root t.info)
      = (fileSeg "screenshot.png" t.info.screenshot).2.map fun w => (under root w.1, w.2) := by
    unfold writeScreenshot fileSeg
    cases t.info.screenshot with
    | none => rfl
    | some b => dsimp only; rw [joinPath_under (by decide)]; rfl
  have e3 : writesOf (writeFonts E root t.fonts) = (under root "fonts.json".toList, writeJson E.J (jVec jFontData) t.fonts)
      :: (fontSeg E t.fonts).map fun w => (under root w.1, w.2) := by
    unfold writeFonts
    rw [writesOf_json E root _ (by decide), writesOf_fonts E root _ hf]
  have e4 : writesOf (writeGameDataFiles E root t.gamedata) = [(under root "gamedata.json".toList,
      writeJson E.J jGameData t.gamedata), (under root "script.vbs".toList, code)] := by
    unfold writeGameDataFiles
    rw [hc]
    dsimp only
    rw [writesOf_json E root _ (by decide), joinPath_under (by decide)]
    rfl
  have e5 : writesOf (writeRenderProbes E root t.gamedata)
      = (fileSeg "renderprobes.json" (t.gamedata.render_probes.map (writeJson E.J (jVec jRenderProbe)))).2.map
          fun w => (under root w.1, w.2) := by
    unfold writeRenderProbes fileSeg
    cases t.gamedata.render_probes with
    | none => rfl
    | some b => dsimp only; rw [writesOf_json E root _ (by decide)]; rfl
  rw [e1, e2, e3, e4, e5]
  rw [writesOf_json E root "info.json" (by decide), writesOf_json E root "collections.json" (by decide),
    writesOf_json E root "images.json" (by decide), writesOf_json E root "sounds.json" (by decide),
    writesOf_guarded, writesOf_guarded]
  unfold tableSegs
  simp only [List.flatMap_cons, List.flatMap_nil, List.map_append, List.append_nil, List.append_assoc]
  rfl

/-! ### The groups -/

theorem fileSeg_inside {n : String} (h : '/' ∉ n.toList) (o : Option Bytes) :
    ∀ w ∈ (fileSeg n o).2, headPart w.1 = (fileSeg n o).1 := by
  intro w hw
  unfold fileSeg at hw ⊢
  cases o with
  | none => cases hw
  | some b =>
    have : w = (n.toList, b) := by simpa using hw
    rw [this]
    exact headPart_plain h

theorem fileSeg_nodup (n : String) (o : Option Bytes) : ((fileSeg n o).2.map (·.1)).Nodup := by
  cases o <;> simp [fileSeg]

theorem dirSeg_inside {d : String} (h : '/' ∉ d.toList) {l : List (Str × Bytes)}
    (hl : ∀ w ∈ l, ∃ f, w.1 = d.toList ++ '/' :: f) : ∀ w ∈ (dirSeg d l).2, headPart w.1 = (dirSeg d l).1 := by
  intro w hw
  obtain ⟨f, hf⟩ := hl w hw
  rw [hf, headPart_sub _ _ h]
  rfl

theorem sub_nodup {d : Str} {l : List Str} (h : l.Nodup) : (l.map fun f => d ++ '/' :: f).Nodup := by
  unfold List.Nodup
  rw [List.pairwise_map]
  exact h.imp fun hab e => hab (List.cons.inj (List.append_cancel_left e)).2

theorem tableSegs_grouped {fmt : MeshFormat} {t : VPX} {zs : List (Str × GameItemEnum)} {code : Bytes}
    (h : Stems E fmt zs) (hi : ((guardedFiles (imageBlocks E t.images)).map (·.1)).Nodup)
    (hs : ((guardedFiles (soundBlocks E t.sounds)).map (·.1)).Nodup) (hf : (fontFiles E t.fonts).Nodup) :
    Grouped (tableSegs E fmt t zs code) := by
  have i1 := dirSeg_inside (d := "gameitems") (by decide) (l := itemSeg E fmt zs) (by
    intro w hw
    obtain ⟨v, -, rfl⟩ := List.mem_map.1 hw
    exact ⟨_, rfl⟩)
  have i2 := dirSeg_inside (d := "images") (by decide) (l := guardedFiles (imageBlocks E t.images)) (by
    intro w hw
    have := guardedFiles_sub hw
    unfold imageBlocks at this
    rw [List.map_map] at this
    obtain ⟨v, -, e⟩ := List.mem_map.1 this
    exact ⟨_, e.symm⟩)
  have i3 := dirSeg_inside (d := "sounds") (by decide) (l := guardedFiles (soundBlocks E t.sounds)) (by
    intro w hw
    have := guardedFiles_sub hw
    unfold soundBlocks at this
    rw [List.map_map] at this
    obtain ⟨v, -, e⟩ := List.mem_map.1 this
    exact ⟨_, e.symm⟩)
  have i4 := dirSeg_inside (d := "fonts") (by decide) (l := fontSeg E t.fonts) (by
    intro w hw
    obtain ⟨v, -, rfl⟩ := List.mem_map.1 hw
    exact ⟨_, rfl⟩)
  have n1 : ((itemSeg E fmt zs).map (·.1)).Nodup := by
    have := sub_nodup (d := "gameitems".toList) (itemsFiles_nodup E h)
    unfold itemSeg
    rw [List.map_map] at this ⊢
    exact this
  have n4 : ((fontSeg E t.fonts).map (·.1)).Nodup := by
    have := sub_nodup (d := "fonts".toList) hf
    unfold fontSeg
    unfold fontFiles at this
    rw [List.map_map] at this ⊢
    exact this
  refine ⟨?_, ?_, ?_⟩
  · show ["version.txt".toList, "screenshot.png".toList, "info.json".toList, "collections.json".toList,
      "gameitems.json".toList, "gameitems".toList, "images.json".toList, "images".toList, "sounds.json".toList,
      "sounds".toList, "fonts.json".toList, "fonts".toList, "gamedata.json".toList, "script.vbs".toList,
      "materials.json".toList, "materials-old.json".toList, "materials-physics-old.json".toList,
      "renderprobes.json".toList].Nodup
    decide +kernel
  · unfold tableSegs
    simp only [List.forall_mem_cons]
    exact ⟨fileSeg_nodup _ _, fileSeg_nodup _ _, fileSeg_nodup _ _, fileSeg_nodup _ _, fileSeg_nodup _ _, n1,
      fileSeg_nodup _ _, hi, fileSeg_nodup _ _, hs, fileSeg_nodup _ _, n4, fileSeg_nodup _ _, fileSeg_nodup _ _,
      fileSeg_nodup _ _, fileSeg_nodup _ _, fileSeg_nodup _ _, fileSeg_nodup _ _, by simp⟩
  · unfold tableSegs
    simp only [List.forall_mem_cons]
    exact ⟨fileSeg_inside (by decide) _, fileSeg_inside (by decide) _, fileSeg_inside (by decide) _,
      fileSeg_inside (by decide) _, fileSeg_inside (by decide) _, i1, fileSeg_inside (by decide) _, i2,
      fileSeg_inside (by decide) _, i3, fileSeg_inside (by decide) _, i4, fileSeg_inside (by decide) _,
      fileSeg_inside (by decide) _, fileSeg_inside (by decide) _, fileSeg_inside (by decide) _,
      fileSeg_inside (by decide) _, fileSeg_inside (by decide) _, by simp⟩

theorem DirHas.file {root : Str} {fs : Files} {segs : List (Str × List (Str × Bytes))} (h : DirHas root fs segs)
    {n : String} (hn : '/' ∉ n.toList) {o : Option Bytes} (hs : fileSeg n o ∈ segs) :
    fs.get (under root n.toList) = o := by
  cases o with
  | none => exact h.absent hs (notDerived_plain hn) (headPart_plain hn) (by simp [fileSeg])
  | some b => exact h.there _ hs (n.toList, b) (by simp [fileSeg])

end Vpin
