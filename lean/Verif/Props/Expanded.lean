import Verif.Lemmas.Assemble
import Verif.Lemmas.ExpandSampleTable
/-
**C57.** A table survives being expanded into an empty directory and assembled from it.
**C58.** Expanding writes only inside the directory.
-/
namespace Vpin
variable (E : ExpandEnv)

/-! ### The whole table -/

theorem stems_of {fmt : MeshFormat} {items : List GameItemEnum} (hok : ∀ g ∈ items, g.Expandable E fmt) :
    ∃ stems, itemStems E.U [] items = .ok stems ∧ stems.length = items.length ∧ Stems E fmt (stems.zip items) := by
  obtain ⟨stems, h1, h2, -⟩ := itemStems_ok (U := E.U) items []
  refine ⟨stems, h1, h2, itemStems_zip items [] stems h1, ?_, ?_⟩
  · intro x hx
    exact hok x.2 (List.of_mem_zip (a := x.1) (b := x.2) hx).2
  · rw [zip_fst_map _ _ h2]
    exact (itemStems_nodup h1).1

/-- **C57.** When a table is expanded into an empty directory without an error, assembling that directory gives the
same table: all fields of the table, its items, images, sounds, fonts, collections and game data in the same order,
where compressed pixels, meshes and animations may be compressed differently but decompress to the same. -/
theorem C57_table_restored (S : StdText E.T) (fmt : MeshFormat) (root : Str) (t : VPX) (fs fs' : Files)
    (ht : t.Expandable E fmt) (hdir : EmptyDir root fs) (he : expand E fmt root t fs = (.ok (), fs')) :
    ∃ t', assemble E root fs' = .ok t' ∧ SameTable E t t' := by
  obtain ⟨d, hd⟩ := ht.gamedata.code
  have hcode : t.gamedata.code.toBytes = .ok d := by rw [hd]; exact C05_script_bytes_preserved d
  obtain ⟨stems, h1, h2, h3⟩ := stems_of E ht.items
  have hw := writesOf_table E root h1 h3 ht.imageNames ht.soundNames ht.fontNames hcode
  have hfs := runSteps_ok _ _ _ he
  rw [hw] at hfs
  have he' := he
  unfold expand expandSteps tableSteps at he'
  obtain ⟨f9, he', -⟩ := runSteps_append _ _ _ _ he'
  obtain ⟨f8, he', -⟩ := runSteps_append _ _ _ _ he'
  obtain ⟨f7, he', -⟩ := runSteps_append _ _ _ _ he'
  obtain ⟨f6, he', -⟩ := runSteps_append _ _ _ _ he'
  obtain ⟨f5, he', hsnd⟩ := runSteps_append _ _ _ _ he'
  obtain ⟨f4, he', himg⟩ := runSteps_append _ _ _ _ he'
  rw [writeImages_eq E root _ ht.imageNames] at himg
  rw [writeSounds_eq E root _ ht.soundNames] at hsnd
  have hg := tableSegs_grouped E (code := d) h3 (guardedFiles_nodup himg) (guardedFiles_nodup hsnd) ht.fontsDiffer
  refine assemble_back E S ht hd h2 h3 ?_
  rw [hfs]
  exact dirHas_of hg hdir

/-! ### Success -/

/-- steps that only write run to the end -/
theorem runSteps_writes : ∀ (steps : List FsStep) (fs : Files), (∀ s ∈ steps, ∃ p bs, s = .write p bs) →
    runSteps steps fs = (.ok (), applyWrites fs (writesOf steps))
  | [], fs, _ => rfl
  | s :: steps, fs, h => by
    obtain ⟨p, bs, rfl⟩ := h s List.mem_cons_self
    exact runSteps_writes steps _ fun x hx => h x (List.mem_cons_of_mem _ hx)

theorem runSteps_absents : ∀ (ps : List Str) (fs : Files), (∀ p ∈ ps, fs.get p = none) →
    runSteps (ps.map .absent) fs = (.ok (), fs)
  | [], fs, _ => rfl
  | p :: ps, fs, h => by
    rw [List.map_cons, runSteps, h p List.mem_cons_self, if_neg (by simp)]
    exact runSteps_absents ps fs fun x hx => h x (List.mem_cons_of_mem _ hx)

theorem runSteps_guarded (root : Str) : ∀ (l : List (Str × Option (Res Bytes))) (fs : Files), (l.map (·.1)).Nodup →
    (∀ x ∈ l, fs.get (under root x.1) = none) → (∀ x ∈ l, ∀ e, x.2 ≠ some (.error e)) →
    runSteps (guardedSteps root l) fs = (.ok (), applyWrites fs ((guardedFiles l).map fun w => (under root w.1, w.2)))
  | [], fs, _, _, _ => rfl
  | (p, o) :: l, fs, hn, ha, he => by
    rw [List.map_cons, List.nodup_cons] at hn
    have ha' := fun x hx => ha x (List.mem_cons_of_mem _ hx)
    have he' := fun x hx => he x (List.mem_cons_of_mem _ hx)
    unfold guardedSteps
    rw [List.flatMap_cons, List.cons_append, runSteps, ha (p, o) List.mem_cons_self, if_neg (by simp)]
    match o with
    | none => exact runSteps_guarded root l fs hn.2 ha' he'
    | some (.error e) => exact absurd rfl (he _ List.mem_cons_self e)
    | some (.ok bs) =>
      refine runSteps_guarded root l (fs.insert (under root p) bs) hn.2 ?_ he'
      intro x hx
      rw [Files.get_insert, if_neg, ha' x hx]
      intro e
      exact hn.1 (under_inj e ▸ List.mem_map_of_mem (f := (·.1)) hx)

/-- the writes are to these files and directories -/
def HeadIn (root : Str) (hs : List Str) (ws : List (Str × Bytes)) : Prop :=
  ∀ w ∈ ws, ∃ f, w.1 = under root f ∧ headPart f ∈ hs

theorem HeadIn.get {root : Str} {hs : List Str} {ws : List (Str × Bytes)} (h : HeadIn root hs ws) (fs : Files) {f : Str}
    (hf : headPart f ∉ hs) : (applyWrites fs ws).get (under root f) = fs.get (under root f) := by
  refine get_applyWrites_not ws fs _ fun hm => ?_
  obtain ⟨w, hw, e⟩ := List.mem_map.1 hm
  obtain ⟨g, hg, hh⟩ := h w hw
  rw [hg] at e
  exact hf (under_inj e ▸ hh)

theorem HeadIn.append {root : Str} {hs : List Str} {a b : List (Str × Bytes)} (h1 : HeadIn root hs a)
    (h2 : HeadIn root hs b) : HeadIn root hs (a ++ b) := fun w hw => by
  rcases List.mem_append.1 hw with h | h
  · exact h1 w h
  · exact h2 w h

theorem headIn_json {α : Type} (root : Str) (n : String) (hn : '/' ∉ n.toList) (c : Codec α) (a : α) {hs : List Str}
    (h : n.toList ∈ hs) : HeadIn root hs (writesOf [jsonStep E root n c a]) := by
  rw [writesOf_json E root n (plain_head hn)]
  intro w hw
  have : w = (under root n.toList, writeJson E.J c a) := by simpa [writesOf] using hw
  exact ⟨n.toList, by rw [this], by rw [headPart_plain hn]; exact h⟩

theorem image_content {s : ImageData} (h : s.Expandable E) (e : Err) : s.content E ≠ some (.error e) := by
  unfold ImageData.content
  rcases h.data with ⟨h1, -, -⟩ | ⟨h1, j, h2, h3, -⟩ | ⟨h1, h2, h3, bits, px, h4, h5, h6, h7⟩
  · rw [if_pos h1]; exact nofun
  · rw [if_neg (by rw [h1]; exact nofun), h2]; exact nofun
  · rw [if_neg (by rw [h1]; exact nofun), h2, h4]
    dsimp only
    rw [if_pos h3]
    obtain ⟨bs, hb, -⟩ := bmp_back E _ _ _ _ h5 h6 h7
    rw [hb]
    exact nofun

/-- **C57.** A table can be expanded into an empty directory if its image files and its sound files have different
names. -/
theorem C57_expand_succeeds (fmt : MeshFormat) (root : Str) (t : VPX) (fs : Files)
    (ht : t.Expandable E fmt) (hdir : EmptyDir root fs) (hi : (imageFiles E t.images).Nodup)
    (hs : (soundFiles E t.sounds).Nodup) : ∃ fs', expand E fmt root t fs = (.ok (), fs') := by
  obtain ⟨d, hd⟩ := ht.gamedata.code
  have hcode : t.gamedata.code.toBytes = .ok d := by rw [hd]; exact C05_script_bytes_preserved d
  obtain ⟨stems, h1, h2, h3⟩ := stems_of E ht.items
  unfold expand expandSteps tableSteps
  -- the first files
  generalize hA : ([FsStep.write (joinPath root "version.txt".toList) (encodeUtf8 t.version.toText)]
    ++ writeScreenshot root t.info
    ++ [jsonStep E root "info.json" (jInfo none) (t.info, t.custominfotags)]
    ++ [jsonStep E root "collections.json" (jVec jCollection) t.collections]) = A
  have rA : runSteps A fs = (.ok (), applyWrites fs (writesOf A)) := by
    refine runSteps_writes A fs ?_
    intro s hs
    rw [← hA] at hs
    simp only [List.mem_append, List.mem_singleton] at hs
    rcases hs with ((rfl | hs) | rfl) | rfl
    · exact ⟨_, _, rfl⟩
    · unfold writeScreenshot at hs
      split at hs
      · exact ⟨_, _, List.mem_singleton.1 hs⟩
      · cases hs
    · exact ⟨_, _, rfl⟩
    · exact ⟨_, _, rfl⟩
  have wA : HeadIn root ["version.txt".toList, "screenshot.png".toList, "info.json".toList, "collections.json".toList]
      (writesOf A) := by
    rw [← hA]
    simp only [writesOf_append]
    refine ((HeadIn.append (HeadIn.append ?_ ?_) ?_)).append ?_
    · intro w hw
      have : w = (joinPath root "version.txt".toList, encodeUtf8 t.version.toText) := by simpa [writesOf] using hw
      exact ⟨"version.txt".toList, by rw [this, joinPath_under (by decide)], by decide⟩
    · unfold writeScreenshot
      split
      · next bs _ =>
        intro w hw
        have : w = (joinPath root "screenshot.png".toList, bs) := by simpa [writesOf] using hw
        exact ⟨"screenshot.png".toList, by rw [this, joinPath_under (by decide)], by decide⟩
      · intro w hw; cases hw
    · exact headIn_json E root _ (by decide) _ _ (by simp)
    · exact headIn_json E root _ (by decide) _ _ (by simp)
  -- the items
  have wI : HeadIn root ["gameitems.json".toList, "gameitems".toList] (writesOf (writeItems E fmt root t.gameitems)) := by
    rw [writesOf_items E root h1 h3]
    intro w hw
    rcases List.mem_cons.1 hw with rfl | hw
    · exact ⟨_, rfl, by decide⟩
    · obtain ⟨v, hv, rfl⟩ := List.mem_map.1 hw
      obtain ⟨u, -, rfl⟩ := List.mem_map.1 hv
      refine ⟨_, rfl, ?_⟩
      rw [headPart_sub _ _ (by decide)]
      decide
  have rI : runSteps (writeItems E fmt root t.gameitems) (applyWrites fs (writesOf A))
      = (.ok (), applyWrites (applyWrites fs (writesOf A)) (writesOf (writeItems E fmt root t.gameitems))) := by
    unfold writeItems writeItemTasks
    rw [h1]
    dsimp only
    have hz : firstError ((stems.zip t.gameitems).map fun x => itemTask E fmt x.1 x.2) = [] := by
      refine firstError_nil _ fun k hk => ?_
      obtain ⟨x, hx, rfl⟩ := List.mem_map.1 hk
      exact (task_names E (h3.stem x hx) (h3.ok x hx)).2.2
    rw [hz, List.append_nil, List.append_assoc]
    have ha := runSteps_absents (stems.map fun stem => joinPath (joinPath root "gameitems".toList) (itemFile stem))
      (applyWrites fs (writesOf A)) (by
        intro p hp
        obtain ⟨n, hn, rfl⟩ := List.mem_map.1 hp
        have hz : n ∈ (stems.zip t.gameitems).map (·.1) := by rw [zip_fst_map _ _ h2]; exact hn
        obtain ⟨x, hx, rfl⟩ := List.mem_map.1 hz
        rw [joinPath_two (d := "gameitems".toList) (f := itemFile x.1) (by decide)
          (fileName_no_slash (h3.stem x hx).no_slash (by decide)), wA.get]
        · exact hdir _
        · rw [headPart_sub _ _ (by decide)]; decide)
    rw [List.map_map] at ha
    change runSteps (stems.map fun stem => .absent (joinPath (joinPath root "gameitems".toList) (itemFile stem))) _ = _
      at ha
    rw [runSteps_append_of _ _ _ _ ha, writesOf_append, absents_writes, List.nil_append]
    refine runSteps_writes _ _ ?_
    intro s hs
    rcases List.mem_append.1 hs with hs | hs
    · exact ⟨_, _, List.mem_singleton.1 hs⟩
    · obtain ⟨k, -, hk⟩ := List.mem_flatMap.1 hs
      obtain ⟨w, -, rfl⟩ := List.mem_map.1 hk
      exact ⟨_, _, rfl⟩
  generalize hF1 : applyWrites (applyWrites fs (writesOf A)) (writesOf (writeItems E fmt root t.gameitems)) = F1 at rI
  have g1 : ∀ f, headPart f ∉ ["version.txt".toList, "screenshot.png".toList, "info.json".toList,
      "collections.json".toList] → headPart f ∉ ["gameitems.json".toList, "gameitems".toList] →
      F1.get (under root f) = none := by
    intro f f1 f2
    rw [← hF1, wI.get _ f2, wA.get _ f1]
    exact hdir f
  -- the images
  have rM : ∃ F2, runSteps (writeImages E root t.images) F1 = (.ok (), F2) ∧
      ∀ f, headPart f = "sounds".toList → F2.get (under root f) = none := by
    rw [writeImages_eq E root _ ht.imageNames]
    have hn : ((imageBlocks E t.images).map (·.1)).Nodup := by
      have := sub_nodup (d := "images".toList) hi
      unfold imageFiles at this
      unfold imageBlocks namedImages
      rw [List.map_map] at this ⊢
      exact this
    have := runSteps_guarded root (imageBlocks E t.images)
      (applyWrites F1 (writesOf [jsonStep E root "images.json" (jVec jImage)
        ((namedImages E t.images).map fun x => x.1.entry E x.2)])) hn (by
        intro x hx
        obtain ⟨y, -, rfl⟩ := List.mem_map.1 hx
        have hh : headPart ("images".toList ++ '/' :: y.1.file y.2) = "images".toList := headPart_sub _ _ (by decide)
        dsimp only
        rw [(headIn_json E root "images.json" (by decide) _ _ (hs := ["images.json".toList]) (by simp)).get _
          (by rw [hh]; decide)]
        exact g1 _ (by rw [hh]; decide) (by rw [hh]; decide)) (by
        intro x hx e
        obtain ⟨y, hy, rfl⟩ := List.mem_map.1 hx
        exact image_content E (ht.images y.1 (List.of_mem_zip (a := y.1) (b := y.2) hy).1) e)
    refine ⟨_, this, ?_⟩
    intro f hf
    rw [HeadIn.get (hs := ["images".toList]) _ _ (by rw [hf]; decide),
      (headIn_json E root "images.json" (by decide) _ _ (hs := ["images.json".toList]) (by simp)).get _
          (by rw [hf]; decide)]
    · exact g1 _ (by rw [hf]; decide) (by rw [hf]; decide)
    · intro w hw
      obtain ⟨v, hv, rfl⟩ := List.mem_map.1 hw
      have hv := guardedFiles_sub hv
      unfold imageBlocks at hv
      rw [List.map_map] at hv
      obtain ⟨y, -, e⟩ := List.mem_map.1 hv
      refine ⟨v.1, rfl, ?_⟩
      rw [← e]
      have hh : headPart ("images".toList ++ '/' :: y.1.file y.2) = "images".toList := headPart_sub _ _ (by decide)
      exact List.mem_singleton.2 hh
  obtain ⟨F2, rM, g2⟩ := rM
  -- the sounds
  have rS : ∃ F3, runSteps (writeSounds E root t.sounds) F2 = (.ok (), F3) := by
    rw [writeSounds_eq E root _ ht.soundNames]
    have hn : ((soundBlocks E t.sounds).map (·.1)).Nodup := by
      have := sub_nodup (d := "sounds".toList) hs
      unfold soundFiles at this
      unfold soundBlocks namedSounds
      rw [List.map_map] at this ⊢
      exact this
    have := runSteps_guarded root (soundBlocks E t.sounds)
      (applyWrites F2 (writesOf [jsonStep E root "sounds.json" (jVec jSound)
        ((namedSounds E t.sounds).map fun x => { SoundDataJson.ofSound x.1 with name_dedup := x.2 })])) hn (by
        intro x hx
        obtain ⟨y, -, rfl⟩ := List.mem_map.1 hx
        have hh : headPart ("sounds".toList ++ '/' :: y.1.file E y.2) = "sounds".toList := headPart_sub _ _ (by decide)
        dsimp only
        rw [(headIn_json E root "sounds.json" (by decide) _ _ (hs := ["sounds.json".toList]) (by simp)).get _
          (by rw [hh]; decide)]
        exact g2 _ hh) (by
        intro x hx e
        obtain ⟨y, hy, rfl⟩ := List.mem_map.1 hx
        exact nofun)
    exact ⟨_, this⟩
  obtain ⟨F3, rS⟩ := rS
  rw [List.append_assoc, List.append_assoc, List.append_assoc, List.append_assoc, List.append_assoc, List.append_assoc,
    runSteps_append_of _ _ _ _ rA, runSteps_append_of _ _ _ _ rI, runSteps_append_of _ _ _ _ rM,
    runSteps_append_of _ _ _ _ rS]
  refine ⟨_, runSteps_writes _ _ ?_⟩
  intro s hs
  simp only [List.mem_append] at hs
  rcases hs with hs | hs | hs | hs
  · rcases List.mem_cons.1 hs with rfl | hs
    · exact ⟨_, _, rfl⟩
    · obtain ⟨x, -, rfl⟩ := List.mem_map.1 hs
      exact ⟨_, _, rfl⟩
  · unfold writeGameDataFiles at hs
    rw [hcode] at hs
    rcases List.mem_cons.1 hs with rfl | hs
    · exact ⟨_, _, rfl⟩
    · exact ⟨_, _, List.mem_singleton.1 hs⟩
  · unfold writeMaterials at hs
    split at hs
    · exact ⟨_, _, List.mem_singleton.1 hs⟩
    · rcases List.mem_cons.1 hs with rfl | hs
      · exact ⟨_, _, rfl⟩
      · split at hs
        · exact ⟨_, _, List.mem_singleton.1 hs⟩
        · cases hs
  · unfold writeRenderProbes at hs
    split at hs
    · exact ⟨_, _, List.mem_singleton.1 hs⟩
    · cases hs

/-! ### Example -/

/-- a table with an animated primitive and others of the same name, four kinds of images, sounds of the same name,
materials and render probes -/
example : ∃ fs' t', expand sampleExpand .Obj "t".toList expandTable [("u/a".toList, [1])] = (.ok (), fs') ∧
    assemble sampleExpand "t".toList fs' = .ok t' ∧ SameTable sampleExpand expandTable t' := by
  have hdir : EmptyDir "t".toList [("u/a".toList, [1])] := by
    intro f
    show Option.map _ (List.find? _ _) = none
    rw [Option.map_eq_none_iff, List.find?_eq_none]
    intro x hx
    have : x = ("u/a".toList, [1]) := by simpa using hx
    subst this
    intro h
    have e := eq_of_beq h
    have e : 'u' = 't' := (List.cons.inj e).1
    exact absurd e (by decide)
  obtain ⟨fs', h1⟩ := C57_expand_succeeds sampleExpand .Obj "t".toList expandTable _ expandTable_ok hdir
    (by decide +kernel) (by decide +kernel)
  obtain ⟨t', h2, h3⟩ := C57_table_restored sampleExpand byteText_std .Obj "t".toList expandTable _ fs' expandTable_ok
    hdir h1
  exact ⟨fs', t', h1, h2, h3⟩

end Vpin
