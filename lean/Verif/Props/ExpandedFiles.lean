import Verif.Lemmas.ExpandSampleTable
import Verif.Lemmas.ExpandedTasks
import Verif.Spec.Schedule
/-
**C37.** Writing the items in parallel leaves the same files.
**C40.** Image files and sound files get different names.
**C41.** Fonts keep their data.
**C42.** The files of different items are different.
**C58.** Expanding writes only inside the directory.
**C59.** Expanding does not overwrite images, sounds or items.
-/
namespace Vpin
variable (E : ExpandEnv)

/-! ### C42 -/

/-- **C42.** No file is written twice when the items are written, if no primitive is named `json` or like the animation
frame of another (`..._anim_0`). -/
theorem C42_item_files_differ (fmt : MeshFormat) (root : Str) (items : List GameItemEnum)
    (hc : ∀ p, .primitive p ∈ items → p.name ≠ "json".toList ∧ ¬ AnimName E.U p.name) :
    ((writesOf (writeItems E fmt root items)).map (·.1)).Nodup := by
  obtain ⟨stems, h1, -, -⟩ := itemStems_ok (U := E.U) items []
  rw [writesOf_any_items E root h1, List.map_cons, List.nodup_cons]
  constructor
  · intro hm
    rw [List.map_map] at hm
    obtain ⟨w, hw, e⟩ := List.mem_map.1 hm
    obtain ⟨v, -, rfl⟩ := List.mem_map.1 hw
    have := congrArg headPart (under_inj e)
    rw [headPart_sub _ _ (by decide), headPart_plain (by decide)] at this
    exact absurd this (by decide)
  · have := tasks_nodup E (fmt := fmt) h1 hc
    unfold itemSeg
    rw [List.map_map, List.map_map]
    unfold List.Nodup at this ⊢
    rw [List.pairwise_map] at this ⊢
    refine this.imp fun {a b} h e => h ?_
    have e2 := under_inj (a := "gameitems".toList ++ '/' :: a.1) (b := "gameitems".toList ++ '/' :: b.1) e
    exact (List.cons.inj (List.append_cancel_left e2)).2

/-! ### C37 -/

theorem Interleaving.perm {α : Type} {ls : List (List α)} {l : List α} (h : Interleaving ls l) : l.Perm ls.flatten := by
  induction h with
  | done h => rw [List.flatten_eq_nil_iff.2 h]
  | @step before after a l rest _ ih =>
    rw [List.flatten_append, List.flatten_cons] at ih ⊢
    rw [List.cons_append]
    exact (ih.cons a).trans List.perm_middle.symm

/-- one task after the other is an interleaving -/
theorem Interleaving.flatten {α : Type} : ∀ ls : List (List α), Interleaving ls ls.flatten := by
  have key : ∀ (pre ls : List (List α)), (∀ l ∈ pre, l = []) → Interleaving (pre ++ ls) ls.flatten := by
    intro pre ls
    induction ls generalizing pre with
    | nil => intro h; rw [List.append_nil]; exact .done h
    | cons l ls ih =>
      intro h
      induction l with
      | nil =>
        have := ih (pre ++ [[]]) (by
          intro l hl
          rcases List.mem_append.1 hl with hl | hl
          · exact h l hl
          · exact List.mem_singleton.1 hl)
        rw [List.append_assoc] at this
        exact this
      | cons a l ih2 => exact .step ih2
  intro ls
  exact key [] ls nofun

theorem runSteps_firstError (ts : List Task) :
    ∃ r, ∀ fs, runSteps (firstError ts) fs = (r, fs) := by
  induction ts with
  | nil => exact ⟨_, fun _ => rfl⟩
  | cons t ts ih =>
    obtain ⟨l, r⟩ := t
    cases r with
    | ok u => exact ih
    | error e => exact ⟨_, fun _ => rfl⟩

theorem runSteps_error_of : ∀ (a b : List FsStep) (fs fs1 : Files) (e : Err), runSteps a fs = (.error e, fs1) →
    runSteps (a ++ b) fs = (.error e, fs1)
  | [], b, fs, fs1, e, h => by cases h
  | .write p bs :: a, b, fs, fs1, e, h => runSteps_error_of a b (fs.insert p bs) fs1 e h
  | .absent p :: a, b, fs, fs1, e, h => by
    rw [runSteps] at h
    rw [List.cons_append, runSteps]
    split at h
    · next hc => rw [if_pos hc]; exact h
    · next hc => rw [if_neg hc]; exact runSteps_error_of a b fs fs1 e h
  | .fail _ :: _, b, fs, fs1, e, h => h

theorem runSteps_map_write (p : Str × Bytes → Str) : ∀ (ws : List (Str × Bytes)) (fs : Files),
    runSteps (ws.map fun w => .write (p w) w.2) fs = (.ok (), applyWrites fs (ws.map fun w => (p w, w.2)))
  | [], _ => rfl
  | w :: ws, fs => runSteps_map_write p ws (fs.insert (p w) w.2)

/-- **C37.** Under every schedule of the tasks, writing the items in parallel gives the same result and the same files
as writing them one after the other, if no primitive is named `json` or like the animation frame of another. -/
theorem C37_any_schedule (fmt : MeshFormat) (root : Str) (items : List GameItemEnum)
    (hc : ∀ p, .primitive p ∈ items → p.name ≠ "json".toList ∧ ¬ AnimName E.U p.name)
    (steps : List FsStep) (h : WriteItemsParallel E fmt root items steps) (fs : Files) :
    (runSteps steps fs).1 = (runSteps (writeItems E fmt root items) fs).1 ∧
    ∀ p, (runSteps steps fs).2.get p = (runSteps (writeItems E fmt root items) fs).2.get p := by
  obtain ⟨stems, ws, h1, h2, rfl⟩ := h
  dsimp only at h2 ⊢
  unfold writeItems writeItemTasks
  rw [h1]
  dsimp only
  have hseq : (((stems.zip items).map fun x => itemTask E fmt x.1 x.2).flatMap fun t => t.1.map fun w =>
      FsStep.write (joinPath (joinPath root "gameitems".toList) w.1) w.2)
      = (itemsFiles E fmt (stems.zip items)).map fun w => .write (joinPath (joinPath root "gameitems".toList) w.1) w.2 := by
    unfold itemsFiles
    rw [List.flatMap_map, List.map_flatMap]
  have hperm := h2.perm
  rw [List.map_map] at hperm
  have hfl : ((stems.zip items).map ((fun t : Task => t.1) ∘ fun x => itemTask E fmt x.1 x.2)).flatten
      = itemsFiles E fmt (stems.zip items) := by
    unfold itemsFiles
    rw [List.flatMap_def]
    rfl
  have hperm : ws.Perm (itemsFiles E fmt (stems.zip items)) := hfl ▸ hperm
  generalize hA : stems.map (fun stem => FsStep.absent (joinPath (joinPath root "gameitems".toList) (itemFile stem)))
    ++ [jsonStep E root "gameitems.json" (jVec jGameItemInfo)
            ((stems.zip items).map fun x => x.2.info (itemFile x.1))] = A
  obtain ⟨r, hr⟩ := runSteps_firstError ((stems.zip items).map fun x => itemTask E fmt x.1 x.2)
  change (runSteps (A ++ ws.map (fun w => .write (joinPath (joinPath root "gameitems".toList) w.1) w.2) ++
      firstError ((stems.zip items).map fun x => itemTask E fmt x.1 x.2)) fs).1
    = (runSteps (A ++ (((stems.zip items).map fun x => itemTask E fmt x.1 x.2).flatMap fun t => t.1.map fun w =>
      FsStep.write (joinPath (joinPath root "gameitems".toList) w.1) w.2) ++
      firstError ((stems.zip items).map fun x => itemTask E fmt x.1 x.2)) fs).1 ∧ ∀ p, (runSteps (A ++ ws.map (fun w =>
      .write (joinPath (joinPath root "gameitems".toList) w.1) w.2) ++
      firstError ((stems.zip items).map fun x => itemTask E fmt x.1 x.2)) fs).2.get p
    = (runSteps (A ++ (((stems.zip items).map fun x => itemTask E fmt x.1 x.2).flatMap fun t => t.1.map fun w =>
      FsStep.write (joinPath (joinPath root "gameitems".toList) w.1) w.2) ++
      firstError ((stems.zip items).map fun x => itemTask E fmt x.1 x.2)) fs).2.get p
  rw [hseq]
  cases hrun : runSteps A fs with
  | mk res fs1 =>
    cases res with
    | error e =>
      rw [List.append_assoc, List.append_assoc, runSteps_error_of _ _ _ _ _ hrun, runSteps_error_of _ _ _ _ _ hrun]
      exact ⟨rfl, fun _ => rfl⟩
    | ok u =>
      rw [List.append_assoc, List.append_assoc, runSteps_append_of _ _ _ _ hrun, runSteps_append_of _ _ _ _ hrun,
        runSteps_append_of _ _ _ _ (runSteps_map_write _ ws fs1),
        runSteps_append_of _ _ _ _ (runSteps_map_write _ (itemsFiles E fmt (stems.zip items)) fs1), hr, hr]
      refine ⟨rfl, fun p => get_applyWrites_perm (hperm.map _) ?_ fs1 p⟩
      have hn := (hperm.map (·.1)).nodup_iff.2 (tasks_nodup E (fmt := fmt) h1 hc)
      rw [List.map_map]
      unfold List.Nodup at hn ⊢
      rw [List.pairwise_map] at hn ⊢
      refine hn.imp_of_mem fun {a b} ha hb hab e => hab ?_
      obtain ⟨x, hx, fx⟩ := itemsFiles_any E (hperm.mem_iff.1 ha)
      obtain ⟨y, hy, fy⟩ := itemsFiles_any E (hperm.mem_iff.1 hb)
      have px := fx.plain ((stems_zip E h1).1 x hx).no_slash
      have py := fy.plain ((stems_zip E h1).1 y hy).no_slash
      dsimp only [Function.comp] at e
      rw [joinPath_two (d := "gameitems".toList) (by decide) px, joinPath_two (d := "gameitems".toList) (by decide) py]
        at e
      exact (List.cons.inj (List.append_cancel_left (under_inj e))).2

/-! ### C40 -/

/-- the name of the file of each image or sound, without its extension -/
def dedupStems (used : List Str) (k : Nat) (names : List Str) : List Str :=
  (names.zip (dedupNames E used k names)).map fun x => x.2.getD x.1

/-- a name with a number -/
def dedupName (n : Str) (j : Nat) : Str := n ++ "_dedup".toList ++ decimal j

theorem dedupName_inj {n n' : Str} {j j' : Nat} (h : dedupName n j = dedupName n' j') : j = j' := by
  unfold dedupName at h
  rw [show "_dedup".toList = "_dedu".toList ++ ['p'] from rfl] at h
  have h : (n ++ "_dedu".toList) ++ 'p' :: decimal j = (n' ++ "_dedu".toList) ++ 'p' :: decimal j' := by simpa using h
  have hd : ∀ i, 'p' ∉ decimal i := by
    intro i hm
    exact absurd (decimalF_digits (i + 1) i 'p' hm).2 (by decide)
  exact decimal_inj (cut_unique h (hd j) (hd j')).2

theorem dedupStems_cons (used : List Str) (k : Nat) (n : Str) (names : List Str) :
    dedupStems E used k (n :: names) =
      if used.contains (E.U.lower (E.sanitize n)) then
        dedupName n (k + 1) :: dedupStems E (E.U.lower (E.sanitize n) :: used) (k + 1) names
      else E.sanitize n :: dedupStems E (E.U.lower (E.sanitize n) :: used) k names := by
  unfold dedupStems
  rw [dedupNames]
  split
  · rw [List.zip_cons_cons, List.map_cons]; rfl
  · rw [List.zip_cons_cons, List.map_cons]
    congr 1
    split
    · next e => exact e.symm
    · rfl

theorem dedupStems_mem : ∀ (names used : List Str) (k : Nat), ∀ x ∈ dedupStems E used k names,
    (∃ n ∈ names, x = E.sanitize n ∧ E.U.lower x ∉ used) ∨ ∃ n ∈ names, ∃ j, k < j ∧ x = dedupName n j
  | [], _, _, _, h => by cases h
  | n :: names, used, k, x, h => by
    rw [dedupStems_cons] at h
    split at h
    · rcases List.mem_cons.1 h with rfl | h
      · exact .inr ⟨n, List.mem_cons_self, k + 1, by omega, rfl⟩
      · rcases dedupStems_mem names _ _ x h with ⟨m, hm, h1, h2⟩ | ⟨m, hm, j, h1, h2⟩
        · exact .inl ⟨m, List.mem_cons_of_mem _ hm, h1, fun h => h2 (List.mem_cons_of_mem _ h)⟩
        · exact .inr ⟨m, List.mem_cons_of_mem _ hm, j, by omega, h2⟩
    · next hc =>
      rcases List.mem_cons.1 h with rfl | h
      · refine .inl ⟨n, List.mem_cons_self, rfl, ?_⟩
        intro hm
        exact hc (List.contains_iff_mem.2 hm)
      · rcases dedupStems_mem names _ _ x h with ⟨m, hm, h1, h2⟩ | ⟨m, hm, j, h1, h2⟩
        · exact .inl ⟨m, List.mem_cons_of_mem _ hm, h1, fun h => h2 (List.mem_cons_of_mem _ h)⟩
        · exact .inr ⟨m, List.mem_cons_of_mem _ hm, j, h1, h2⟩

theorem dedupStems_nodup : ∀ (names used : List Str) (k : Nat),
    (∀ n ∈ names, ∀ a j, E.sanitize n ≠ dedupName a j) → (dedupStems E used k names).Nodup
  | [], _, _, _ => List.nodup_nil
  | n :: names, used, k, h => by
    have ih := fun used k => dedupStems_nodup names used k fun m hm => h m (List.mem_cons_of_mem _ hm)
    rw [dedupStems_cons]
    split
    · rw [List.nodup_cons]
      refine ⟨fun hm => ?_, ih _ _⟩
      rcases dedupStems_mem E names _ _ _ hm with ⟨m, hm, h1, -⟩ | ⟨m, hm, j, h1, h2⟩
      · exact h m (List.mem_cons_of_mem _ hm) _ _ h1.symm
      · have := dedupName_inj h2
        omega
    · rw [List.nodup_cons]
      refine ⟨fun hm => ?_, ih _ _⟩
      rcases dedupStems_mem E names _ _ _ hm with ⟨m, hm, h1, h2⟩ | ⟨m, hm, j, h1, h2⟩
      · exact h2 List.mem_cons_self
      · exact h n List.mem_cons_self _ _ h2

theorem lastDotPart_no_dot (path : Str) : '.' ∉ lastDotPart path := by
  unfold lastDotPart
  intro h
  have : ∀ l : Str, '.' ∉ l.takeWhile (· ≠ '.') := by
    intro l
    induction l with
    | nil => simp
    | cons c l ih =>
      rw [List.takeWhile_cons]
      split
      · next hc =>
        intro hm
        rcases List.mem_cons.1 hm with rfl | hm
        · simp at hc
        · exact ih hm
      · simp
  exact this _ (List.mem_reverse.1 h)

theorem named_nodup {α : Type} (name : α → Str) (ext : α → Str) (l : List α) (he : ∀ x ∈ l, '.' ∉ ext x)
    (h : (dedupStems E [] 0 (l.map name)).Nodup) :
    ((l.zip (dedupNames E [] 0 (l.map name))).map fun x => fileName (x.2.getD (name x.1)) (ext x.1)).Nodup := by
  have e : dedupStems E [] 0 (l.map name)
      = (l.zip (dedupNames E [] 0 (l.map name))).map fun x => x.2.getD (name x.1) := by
    unfold dedupStems
    generalize dedupNames E [] 0 (l.map name) = ds
    clear h he
    induction l generalizing ds with
    | nil => rfl
    | cons a l ih =>
      cases ds with
      | nil => rfl
      | cons d ds => rw [List.map_cons, List.zip_cons_cons, List.map_cons, ih, List.zip_cons_cons, List.map_cons]
  rw [e] at h
  unfold List.Nodup at h ⊢
  rw [List.pairwise_map] at h ⊢
  refine h.imp_of_mem fun {a b} ha hb hab e => hab ?_
  exact (fileName_inj (he a.1 (List.of_mem_zip (a := a.1) (b := a.2) ha).1)
    (he b.1 (List.of_mem_zip (a := b.1) (b := b.2) hb).1) e).1

/-- **C40.** The files of all images have different names, if no image has a name that ends in `_dedup` and a
number. -/
theorem C40_image_files_differ (images : List ImageData)
    (h : ∀ s ∈ images, ∀ (a : Str) (k : Nat), E.sanitize s.name ≠ a ++ "_dedup".toList ++ decimal k) :
    (imageFiles E images).Nodup := by
  refine named_nodup E (·.name) (·.ext) images (fun s _ => lastDotPart_no_dot _) (dedupStems_nodup E _ _ _ ?_)
  intro n hn
  obtain ⟨s, hs, rfl⟩ := List.mem_map.1 hn
  exact h s hs

/-- **C40.** The files of all sounds have different names, if no sound has a name that ends in `_dedup` and a
number. (An extension has no dot.) -/
theorem C40_sound_files_differ (sounds : List SoundData) (he : ∀ s ∈ sounds, '.' ∉ soundExt E s.path)
    (h : ∀ s ∈ sounds, ∀ (a : Str) (k : Nat), E.sanitize s.name ≠ a ++ "_dedup".toList ++ decimal k) :
    (soundFiles E sounds).Nodup := by
  have := named_nodup E (·.name) (fun s => soundExt E s.path) sounds he (dedupStems_nodup E _ _ _ (by
    intro n hn
    obtain ⟨s, hs, rfl⟩ := List.mem_map.1 hn
    exact h s hs))
  have e : soundFiles E sounds = (sounds.zip (dedupNames E [] 0 (sounds.map (·.name)))).map fun x =>
      fileName (x.2.getD x.1.name) (soundExt E x.1.path) := by
    unfold soundFiles
    refine List.map_congr_left fun x hx => ?_
    obtain ⟨s, d⟩ := x
    unfold SoundData.file
    cases d with
    | some x => rfl
    | none =>
      show fileName (E.sanitize s.name) _ = fileName s.name _
      rw [dedupNames_none E _ _ _ s.name none (zip_map_mem (f := (·.name)) hx) rfl]
  rw [e]
  exact this

/-! ### C41 -/

/-- the data of the last font that has the same file -/
def lastData (fonts : List FontData) (s : FontData) : Bytes :=
  ((fonts.reverse.find? fun x => x.file E == s.file E).map (·.data)).getD []

theorem get_applyWrites_last : ∀ (ws : List (Str × Bytes)) (fs : Files) (p : Str),
    (applyWrites fs ws).get p = ((ws.reverse.find? fun w => w.1 == p).map (·.2)).or (fs.get p)
  | [], _, _ => rfl
  | w :: ws, fs, p => by
    show (applyWrites (fs.insert w.1 w.2) ws).get p = _
    rw [get_applyWrites_last ws, List.reverse_cons, List.find?_append, Files.get_insert]
    cases hf : ws.reverse.find? fun w => w.1 == p with
    | some x => rfl
    | none =>
      by_cases e : w.1 = p
      · rw [if_pos e, List.find?_singleton, if_pos (by rw [e]; exact beq_self_eq_true p)]; rfl
      · rw [if_neg e, List.find?_singleton, if_neg (by simpa using e)]; rfl

/-- **C41.** After the fonts were written, each font is read back with the data of the last font whose file has the
same name. -/
theorem C41_last_font_wins (root : Str) (fonts : List FontData) (fs : Files) (hn : ∀ f ∈ fontFiles E fonts, '/' ∉ f) :
    readFonts E root (runSteps (writeFonts E root fonts) fs).2
      = .ok (fonts.map fun s => { s with data := lastData E fonts s }) := by
  have hrun : (runSteps (writeFonts E root fonts) fs).2 = applyWrites fs
      ((under root "fonts.json".toList, writeJson E.J (jVec jFontData) fonts) ::
        (fontSeg E fonts).map fun w => (under root w.1, w.2)) := by
    unfold writeFonts jsonStep
    rw [joinPath_under (by decide), runSteps]
    have hm : ∀ (l : List FontData) (fs : Files), (runSteps (l.map fun s =>
        FsStep.write (joinPath (joinPath root "fonts".toList) (s.file E)) s.data) fs).2
        = applyWrites fs (writesOf (l.map fun s =>
        FsStep.write (joinPath (joinPath root "fonts".toList) (s.file E)) s.data)) := by
      intro l
      induction l with
      | nil => intro fs; rfl
      | cons a l ih => intro fs; exact ih _
    rw [hm, writesOf_fonts E root fonts hn]
    rfl
  rw [hrun]
  unfold readFonts
  have hj : (applyWrites fs ((under root "fonts.json".toList, writeJson E.J (jVec jFontData) fonts) ::
      (fontSeg E fonts).map fun w => (under root w.1, w.2))).get (under root "fonts.json".toList)
      = some (writeJson E.J (jVec jFontData) fonts) := by
    show (applyWrites (fs.insert _ _) _).get _ = _
    rw [get_applyWrites_not, Files.get_insert, if_pos rfl]
    intro hm
    rw [List.map_map] at hm
    obtain ⟨w, hw, e⟩ := List.mem_map.1 hm
    obtain ⟨s, -, rfl⟩ := List.mem_map.1 hw
    have := congrArg headPart (under_inj e)
    rw [headPart_sub _ _ (by decide), headPart_plain (by decide)] at this
    exact absurd this (by decide)
  rw [Res.thenOk (readOptional_some E (by decide) hj rfl (jFonts_back E fonts))]
  show List.mapM _ _ = _
  rw [Option.getD_some, mapM_eq _ _ (fun s => { s with data := lastData E fonts s }) fonts]
  intro s hs
  unfold readFont
  show (orIo (Files.get _ (joinPath (joinPath root "fonts".toList) (s.file E))) >>= _) = _
  rw [joinPath_two (d := "fonts".toList) (by decide) (hn _ (List.mem_map.2 ⟨s, hs, rfl⟩))]
  have hg : (applyWrites fs ((under root "fonts.json".toList, writeJson E.J (jVec jFontData) fonts) ::
      (fontSeg E fonts).map fun w => (under root w.1, w.2))).get (under root ("fonts".toList ++ '/' :: s.file E))
      = some (lastData E fonts s) := by
    show (applyWrites (fs.insert _ _) _).get _ = _
    rw [get_applyWrites_last]
    unfold fontSeg lastData
    rw [List.map_map, ← List.map_reverse, List.find?_map]
    have hp : ((fun w : Str × Bytes => w.1 == under root ("fonts".toList ++ '/' :: s.file E)) ∘
        (fun w : Str × Bytes => (under root w.1, w.2)) ∘ fun x : FontData => ("fonts".toList ++ '/' :: x.file E, x.data))
        = fun x => x.file E == s.file E := by
      funext x
      dsimp only [Function.comp]
      rw [Bool.eq_iff_iff, beq_iff_eq, beq_iff_eq]
      constructor
      · intro e
        exact (List.cons.inj (List.append_cancel_left (under_inj e))).2
      · intro e; rw [e]
    rw [hp]
    cases hf : fonts.reverse.find? fun x => x.file E == s.file E with
    | some x => rfl
    | none =>
      rw [List.find?_eq_none] at hf
      exact absurd (beq_self_eq_true _) (hf s (List.mem_reverse.2 hs))
  rw [hg, orIo_bind]
  rfl

/-- **C41.** Fonts whose files have different names keep their data. -/
theorem C41_fonts_restored (root : Str) (fonts : List FontData) (fs : Files) (hn : ∀ f ∈ fontFiles E fonts, '/' ∉ f)
    (hd : (fontFiles E fonts).Nodup) : readFonts E root (runSteps (writeFonts E root fonts) fs).2 = .ok fonts := by
  rw [C41_last_font_wins E root fonts fs hn]
  have : (fonts.map fun s => { s with data := lastData E fonts s }) = fonts.map id := by
    refine List.map_congr_left fun s hs => ?_
    have : lastData E fonts s = s.data := by
      unfold lastData
      cases hf : fonts.reverse.find? fun x => x.file E == s.file E with
      | none =>
        rw [List.find?_eq_none] at hf
        exact absurd (beq_self_eq_true _) (hf s (List.mem_reverse.2 hs))
      | some x =>
        have hx := List.mem_reverse.1 (List.mem_of_find?_eq_some hf)
        have he : x.file E = s.file E := by simpa using List.find?_some hf
        have : x = s := by
          clear hf
          unfold fontFiles at hd
          induction fonts with
          | nil => cases hs
          | cons a l ih =>
            rw [List.map_cons, List.nodup_cons] at hd
            rcases List.mem_cons.1 hs with rfl | hs' <;> rcases List.mem_cons.1 hx with rfl | hx'
            · rfl
            · exact absurd (List.mem_map.2 ⟨x, hx', he⟩) hd.1
            · exact absurd (List.mem_map.2 ⟨s, hs', he.symm⟩) hd.1
            · exact ih (fun f hf => hn f (List.mem_cons_of_mem _ hf)) hd.2 hs' hx'
        rw [this]; rfl
    rw [this]; rfl
  rw [this, List.map_id]

/-! ### C58 -/

/-- all paths written are of that kind -/
def AllWrites (P : Str → Prop) (steps : List FsStep) : Prop := ∀ w ∈ writesOf steps, P w.1

theorem AllWrites.append {P : Str → Prop} {a b : List FsStep} (h1 : AllWrites P a) (h2 : AllWrites P b) :
    AllWrites P (a ++ b) := by
  intro w hw
  rw [writesOf_append] at hw
  rcases List.mem_append.1 hw with h | h
  · exact h1 w h
  · exact h2 w h

theorem AllWrites.nil {P : Str → Prop} : AllWrites P [] := fun _ h => by cases h

theorem AllWrites.write {P : Str → Prop} {p : Str} {bs : Bytes} {rest : List FsStep} (h : P p)
    (hr : AllWrites P rest) : AllWrites P (.write p bs :: rest) := by
  intro w hw
  rcases List.mem_cons.1 hw with rfl | hw
  · exact h
  · exact hr w hw

theorem AllWrites.fail {P : Str → Prop} {e : Err} : AllWrites P [.fail e] := fun _ h => by cases h

/-- a file beside the directories -/
theorem inDir_top (root : Str) (n : String) (h : '/' ∉ n.toList) : InExpandedDir root (joinPath root n.toList) := by
  rw [joinPath_under (plain_head h)]
  exact ⟨n.toList, h, .inl rfl⟩

theorem inDir_sub (root : Str) (d : String) (hd : d ∈ ["gameitems", "images", "sounds", "fonts"]) {f : Str}
    (hf : '/' ∉ f) : InExpandedDir root (joinPath (joinPath root d.toList) f) := by
  have : d.toList.head? ≠ some '/' := by
    simp only [List.mem_cons, List.not_mem_nil, or_false] at hd
    rcases hd with rfl | rfl | rfl | rfl <;> decide
  rw [joinPath_two this hf]
  exact ⟨f, hf, .inr ⟨d, hd, rfl⟩⟩

theorem AnyTaskFile.no_dash {U : Unicode} {fmt : MeshFormat} {n : Str} {g : GameItemEnum} (hn : StemOf U n g) {f : Str}
    (h : AnyTaskFile fmt n g f) : '-' ∉ f := by
  have hx : ∀ e ∈ fmt.exts, '-' ∉ e := by cases fmt <;> decide
  have ht : '-' ∉ trimJson n := by
    obtain ⟨a, ha⟩ := trimJson_prefix n
    intro hm
    have := hn.no_dash
    rw [ha] at this
    exact this (List.mem_append_left _ hm)
  rcases h with rfl | ⟨-, e, he, h⟩
  · exact fileName_no_dash hn.no_dash (by decide)
  · rcases h with rfl | ⟨i, rfl⟩
    · exact fileName_no_dash hn.no_dash (hx e he)
    · exact fileName_no_dash (frameStem_no_dash ht i) (hx e he)

/-- the paths to which expanding writes: the files of the table, by name -/
def KnownFile (t : VPX) (root p : Str) : Prop :=
  (∃ n ∈ ["version.txt", "screenshot.png", "info.json", "collections.json", "gameitems.json", "images.json",
      "sounds.json", "fonts.json", "gamedata.json", "script.vbs", "materials.json", "materials-old.json",
      "materials-physics-old.json", "renderprobes.json"], p = joinPath root n.toList) ∨
  (∃ (f : Str), '/' ∉ f ∧ '-' ∉ f ∧ p = joinPath (joinPath root "gameitems".toList) f) ∨
  (∃ f ∈ imageFiles E t.images, p = joinPath (joinPath root "images".toList) f) ∨
  (∃ f ∈ soundFiles E t.sounds, p = joinPath (joinPath root "sounds".toList) f) ∨
  (∃ f ∈ fontFiles E t.fonts, p = joinPath (joinPath root "fonts".toList) f)

theorem writes_images (root : Str) (images : List ImageData) {P : Str → Prop}
    (hj : P (joinPath root "images.json".toList))
    (h : ∀ f ∈ imageFiles E images, P (joinPath (joinPath root "images".toList) f)) :
    AllWrites P (writeImages E root images) := by
  unfold writeImages
  refine AllWrites.write hj ?_
  unfold imageFiles at h
  generalize hz : images.zip (dedupNames E [] 0 (images.map (·.name))) = zs at h
  clear hz
  induction zs with
  | nil => exact AllWrites.nil
  | cons x zs ih =>
    rw [List.flatMap_cons]
    refine AllWrites.append ?_ (ih fun f hf => h f (List.mem_cons_of_mem _ hf))
    obtain ⟨s, d⟩ := x
    have hp := h (s.file d) List.mem_cons_self
    have : AllWrites P (s.dataSteps E (joinPath (joinPath root "images".toList) (s.file d))) := by
      rw [dataSteps_eq]
      cases s.content E with
      | none => exact AllWrites.nil
      | some r =>
        cases r with
        | ok bs => exact AllWrites.write hp AllWrites.nil
        | error e => exact AllWrites.fail
    exact this

theorem writes_sounds (root : Str) (sounds : List SoundData) {P : Str → Prop}
    (hj : P (joinPath root "sounds.json".toList))
    (h : ∀ f ∈ soundFiles E sounds, P (joinPath (joinPath root "sounds".toList) f)) :
    AllWrites P (writeSounds E root sounds) := by
  unfold writeSounds
  refine AllWrites.write hj ?_
  unfold soundFiles at h
  generalize hz : sounds.zip (dedupNames E [] 0 (sounds.map (·.name))) = zs at h
  clear hz
  induction zs with
  | nil => exact AllWrites.nil
  | cons x zs ih =>
    rw [List.flatMap_cons]
    refine AllWrites.append ?_ (ih fun f hf => h f (List.mem_cons_of_mem _ hf))
    have hp := h _ List.mem_cons_self
    exact AllWrites.write hp AllWrites.nil

theorem writes_fonts (root : Str) (fonts : List FontData) {P : Str → Prop}
    (hj : P (joinPath root "fonts.json".toList))
    (h : ∀ f ∈ fontFiles E fonts, P (joinPath (joinPath root "fonts".toList) f)) :
    AllWrites P (writeFonts E root fonts) := by
  unfold writeFonts
  refine AllWrites.write hj ?_
  induction fonts with
  | nil => exact AllWrites.nil
  | cons x zs ih =>
    rw [List.map_cons]
    exact AllWrites.write (h _ List.mem_cons_self) (ih fun f hf => h f (List.mem_cons_of_mem _ hf))

theorem writes_items (fmt : MeshFormat) (root : Str) (items : List GameItemEnum) {P : Str → Prop}
    (hj : P (joinPath root "gameitems.json".toList))
    (h : ∀ f : Str, '/' ∉ f → '-' ∉ f → P (joinPath (joinPath root "gameitems".toList) f)) :
    AllWrites P (writeItems E fmt root items) := by
  obtain ⟨stems, h1, -, -⟩ := itemStems_ok (U := E.U) items []
  intro w hw
  rw [writesOf_any_items E root h1] at hw
  rcases List.mem_cons.1 hw with rfl | hw
  · rw [joinPath_under (by decide)] at hj
    exact hj
  · obtain ⟨v, hv, rfl⟩ := List.mem_map.1 hw
    obtain ⟨u, hu, rfl⟩ := List.mem_map.1 hv
    obtain ⟨x, hx, hf⟩ := itemsFiles_any E hu
    have hp := hf.plain ((stems_zip E h1).1 x hx).no_slash
    have := h u.1 hp (hf.no_dash ((stems_zip E h1).1 x hx))
    rw [joinPath_two (d := "gameitems".toList) (by decide) hp] at this
    exact this

theorem writes_known (fmt : MeshFormat) (root : Str) (t : VPX) :
    AllWrites (KnownFile E t root) (expandSteps E fmt root t) := by
  have top : ∀ n ∈ ["version.txt", "screenshot.png", "info.json", "collections.json", "gameitems.json", "images.json",
      "sounds.json", "fonts.json", "gamedata.json", "script.vbs", "materials.json", "materials-old.json",
      "materials-physics-old.json", "renderprobes.json"], KnownFile E t root (joinPath root n.toList) :=
    fun n hn => .inl ⟨n, hn, rfl⟩
  unfold expandSteps tableSteps
  refine (((((((((AllWrites.append ?_ ?_).append ?_).append ?_).append ?_).append ?_).append ?_).append ?_).append
    ?_).append ?_).append ?_
  · exact AllWrites.write (top "version.txt" (by decide)) AllWrites.nil
  · unfold writeScreenshot
    split
    · exact AllWrites.write (top "screenshot.png" (by decide)) AllWrites.nil
    · exact AllWrites.nil
  · exact AllWrites.write (top "info.json" (by decide)) AllWrites.nil
  · exact AllWrites.write (top "collections.json" (by decide)) AllWrites.nil
  · exact writes_items E fmt root _ (top "gameitems.json" (by decide)) fun f hf hd => .inr (.inl ⟨f, hf, hd, rfl⟩)
  · exact writes_images E root _ (top "images.json" (by decide)) fun f hf => .inr (.inr (.inl ⟨f, hf, rfl⟩))
  · exact writes_sounds E root _ (top "sounds.json" (by decide)) fun f hf => .inr (.inr (.inr (.inl ⟨f, hf, rfl⟩)))
  · exact writes_fonts E root _ (top "fonts.json" (by decide)) fun f hf => .inr (.inr (.inr (.inr ⟨f, hf, rfl⟩)))
  · unfold writeGameDataFiles
    refine AllWrites.write (top "gamedata.json" (by decide)) ?_
    split
    · exact AllWrites.write (top "script.vbs" (by decide)) AllWrites.nil
    · exact AllWrites.fail
  · unfold writeMaterials
    split
    · exact AllWrites.write (top "materials.json" (by decide)) AllWrites.nil
    · refine AllWrites.write (top "materials-old.json" (by decide)) ?_
      split
      · exact AllWrites.write (top "materials-physics-old.json" (by decide)) AllWrites.nil
      · exact AllWrites.nil
  · unfold writeRenderProbes
    split
    · exact AllWrites.write (top "renderprobes.json" (by decide)) AllWrites.nil
    · exact AllWrites.nil

/-- **C58.** However expanding a table ends, every file that it created or changed is in the directory or in one of its
four directories, if the file names of images, sounds and fonts are names and not paths. -/
theorem C58_only_in_directory (fmt : MeshFormat) (root : Str) (t : VPX) (fs : Files)
    (hi : ∀ f ∈ imageFiles E t.images, '/' ∉ f) (hs : ∀ f ∈ soundFiles E t.sounds, '/' ∉ f)
    (hf : ∀ f ∈ fontFiles E t.fonts, '/' ∉ f) (p : Str) (hp : (expand E fmt root t fs).2.get p ≠ fs.get p) :
    InExpandedDir root p := by
  have hm : p ∈ (writesOf (expandSteps E fmt root t)).map (·.1) := by
    refine Classical.not_not.1 fun hn => hp ?_
    exact runSteps_get_not _ _ _ hn
  obtain ⟨w, hw, rfl⟩ := List.mem_map.1 hm
  rcases writes_known E fmt root t w hw with ⟨n, hn, e⟩ | ⟨f, hf, -, e⟩ | ⟨f, h, e⟩ | ⟨f, h, e⟩ | ⟨f, h, e⟩
  · rw [e]
    refine inDir_top root n ?_
    have : ∀ n ∈ ["version.txt", "screenshot.png", "info.json", "collections.json", "gameitems.json", "images.json",
      "sounds.json", "fonts.json", "gamedata.json", "script.vbs", "materials.json", "materials-old.json",
      "materials-physics-old.json", "renderprobes.json"], '/' ∉ n.toList := by decide
    exact this n hn
  · rw [e]; exact inDir_sub root "gameitems" (by decide) hf
  · rw [e]; exact inDir_sub root "images" (by decide) (hi f h)
  · rw [e]; exact inDir_sub root "sounds" (by decide) (hs f h)
  · rw [e]; exact inDir_sub root "fonts" (by decide) (hf f h)

theorem dedupStems_plain (names used : List Str) (k : Nat) (h : ∀ n ∈ names, '/' ∉ n) :
    ∀ x ∈ dedupStems E used k names, '/' ∉ x := by
  intro x hx
  rcases dedupStems_mem E names used k x hx with ⟨n, -, rfl, -⟩ | ⟨n, hn, j, -, rfl⟩
  · exact E.sanitize_plain n
  · unfold dedupName
    intro hm
    rcases List.mem_append.1 hm with hm | hm
    · rcases List.mem_append.1 hm with hm | hm
      · exact h n hn hm
      · exact absurd hm (by decide)
    · exact decimal_no_slash j hm

theorem named_plain {α : Type} (name : α → Str) (ext : α → Str) (l : List α) (hn : ∀ x ∈ l, '/' ∉ name x)
    (he : ∀ x ∈ l, '/' ∉ ext x) :
    ∀ f ∈ (l.zip (dedupNames E [] 0 (l.map name))).map fun x => fileName (x.2.getD (name x.1)) (ext x.1), '/' ∉ f := by
  intro f hf
  obtain ⟨x, hx, rfl⟩ := List.mem_map.1 hf
  refine fileName_no_slash ?_ (he x.1 (List.of_mem_zip (a := x.1) (b := x.2) hx).1)
  refine dedupStems_plain E (l.map name) [] 0 ?_ _ (List.mem_map.2 ⟨(name x.1, x.2), zip_map_mem hx, rfl⟩)
  intro n hn'
  obtain ⟨y, hy, rfl⟩ := List.mem_map.1 hn'
  exact hn y hy

/-- **C58.** The file names are names if there is no `/` in the names of images and sounds, nor behind the last dot of
the paths of images and fonts, nor in the extensions of sounds. -/
theorem C58_names_suffice (t : VPX)
    (hi : ∀ s ∈ t.images, '/' ∉ s.name ∧ '/' ∉ s.ext) (hs : ∀ s ∈ t.sounds, '/' ∉ s.name ∧ '/' ∉ soundExt E s.path)
    (hf : ∀ s ∈ t.fonts, '/' ∉ s.ext) :
    (∀ f ∈ imageFiles E t.images, '/' ∉ f) ∧ (∀ f ∈ soundFiles E t.sounds, '/' ∉ f) ∧
    ∀ f ∈ fontFiles E t.fonts, '/' ∉ f := by
  refine ⟨named_plain E (fun s : ImageData => s.name) (fun s => s.ext) t.images (fun s h => (hi s h).1) fun s h =>
    (hi s h).2, ?_, ?_⟩
  · intro f h
    obtain ⟨⟨s, d⟩, hx, rfl⟩ := List.mem_map.1 h
    unfold SoundData.file
    have hm := List.of_mem_zip hx
    refine fileName_no_slash ?_ (hs s hm.1).2
    cases d with
    | none => exact E.sanitize_plain _
    | some x =>
      refine dedupStems_plain E (t.sounds.map (·.name)) [] 0 ?_ x
        (List.mem_map.2 ⟨(s.name, some x), zip_map_mem (f := (·.name)) hx, rfl⟩)
      intro n hn'
      obtain ⟨y, hy, rfl⟩ := List.mem_map.1 hn'
      exact (hs y hy).1
  · intro f h
    obtain ⟨s, hs, rfl⟩ := List.mem_map.1 h
    exact fileName_no_slash (E.sanitize_plain _) (hf s hs)

/-! ### C59 -/

theorem keeps_of_writes {q : Str} {steps : List FsStep} {P : Str → Prop} (h : AllWrites P steps) (hq : ¬ P q) :
    Keeps q steps := Keeps.of_not fun hm => by
  obtain ⟨w, hw, rfl⟩ := List.mem_map.1 hm
  exact hq (h w hw)

theorem keeps_images {q : Str} (root : Str) (images : List ImageData) (hq : q ≠ joinPath root "images.json".toList) :
    Keeps q (writeImages E root images) := by
  have h1 : Keeps q [jsonStep E root "images.json" (jVec jImage)
      ((images.zip (dedupNames E [] 0 (images.map (·.name)))).map fun x => x.1.entry E x.2)] :=
    keeps_of_writes (P := (· = joinPath root "images.json".toList)) (AllWrites.write rfl AllWrites.nil) hq
  refine h1.append (Keeps.guarded (fun x : ImageData × Option Str => joinPath (joinPath root "images".toList) (x.1.file x.2))
    (fun x => x.1.dataSteps E (joinPath (joinPath root "images".toList) (x.1.file x.2))) _ ?_)
  intro x _ w hw
  rw [dataSteps_eq] at hw
  cases hc : x.1.content E with
  | none => rw [hc] at hw; cases hw
  | some r =>
    rw [hc] at hw
    cases r with
    | ok bs => rw [List.mem_singleton.1 hw]
    | error e => cases hw

theorem keeps_sounds {q : Str} (root : Str) (sounds : List SoundData) (hq : q ≠ joinPath root "sounds.json".toList) :
    Keeps q (writeSounds E root sounds) := by
  have h1 : Keeps q [jsonStep E root "sounds.json" (jVec jSound)
      ((sounds.zip (dedupNames E [] 0 (sounds.map (·.name)))).map fun x =>
        { SoundDataJson.ofSound x.1 with name_dedup := x.2 })] :=
    keeps_of_writes (P := (· = joinPath root "sounds.json".toList)) (AllWrites.write rfl AllWrites.nil) hq
  refine h1.append (Keeps.guarded
    (fun x : SoundData × Option Str => joinPath (joinPath root "sounds".toList) (x.1.file E x.2))
    (fun x => [.write (joinPath (joinPath root "sounds".toList) (x.1.file E x.2)) (x.1.export E.ext)]) _ ?_)
  intro x _ w hw
  rw [List.mem_singleton.1 hw]

theorem keeps_items (fmt : MeshFormat) (root : Str) (items : List GameItemEnum) (f : Str) (hf : '/' ∉ f) :
    Keeps (joinPath (joinPath root "gameitems".toList) (fileName f "json".toList)) (writeItems E fmt root items) := by
  obtain ⟨stems, h1, -, -⟩ := itemStems_ok (U := E.U) items []
  have hw := writesOf_any_items E (fmt := fmt) root h1
  unfold writeItems writeItemTasks at hw ⊢
  rw [h1] at hw ⊢
  dsimp only at hw ⊢
  have e : stems.map (fun stem => FsStep.absent (joinPath (joinPath root "gameitems".toList) (itemFile stem)))
      = (stems.map fun stem => joinPath (joinPath root "gameitems".toList) (itemFile stem)).map .absent := by
    rw [List.map_map]; rfl
  simp only [List.append_assoc] at hw ⊢
  rw [e] at hw ⊢
  have hpl : '/' ∉ fileName f "json".toList := fileName_no_slash hf (by decide)
  refine Keeps.absents fun hq => Keeps.of_not fun hm => hq ?_
  rw [writesOf_append, ← e, absents_writes, List.nil_append] at hw
  simp only [List.append_assoc, List.cons_append, List.nil_append] at hw hm
  rw [hw, joinPath_two (d := "gameitems".toList) (by decide) hpl] at hm
  rw [joinPath_two (d := "gameitems".toList) (by decide) hpl]
  rcases List.mem_cons.1 hm with e | hm
  · have := congrArg headPart (under_inj e)
    rw [headPart_sub _ _ (by decide), headPart_plain (by decide)] at this
    exact absurd this (by decide)
  · rw [List.map_map] at hm
    obtain ⟨v, hv, e⟩ := List.mem_map.1 hm
    obtain ⟨u, hu, rfl⟩ := List.mem_map.1 hv
    have e2 : u.1 = fileName f "json".toList := (List.cons.inj (List.append_cancel_left (under_inj e))).2
    obtain ⟨x, hx, hu⟩ := itemsFiles_any E hu
    rw [e2] at hu
    have e3 := hu.json
    refine List.mem_map.2 ⟨x.1, (List.of_mem_zip (a := x.1) (b := x.2) hx).1, ?_⟩
    rw [← e3]
    exact joinPath_two (d := "gameitems".toList) (by decide) hpl

/-- **C59.** However expanding a table ends, image files, sound files and JSON files of items that were in the directory
before are unchanged. (The file names of fonts are names and not paths.) -/
theorem C59_existing_kept (fmt : MeshFormat) (root : Str) (t : VPX) (fs : Files)
    (hf : ∀ f ∈ fontFiles E t.fonts, '/' ∉ f) (f : Str) (hp : '/' ∉ f) (path : Str)
    (hpath : path = root ++ "/images/".toList ++ f ∨ path = root ++ "/sounds/".toList ++ f ∨
      path = root ++ "/gameitems/".toList ++ f ++ ".json".toList)
    (content : Bytes) (hc : fs.get path = some content) : (expand E fmt root t fs).2.get path = some content := by
  have two : ∀ (d : Str) (f : Str), d.head? ≠ some '/' → '/' ∉ f →
      joinPath (joinPath root d) f = under root (d ++ '/' :: f) := fun d f hd hf => joinPath_two hd hf
  have hd : ∃ (d : String) (g : Str), '/' ∉ g ∧ d ∈ ["images", "sounds", "gameitems"] ∧
      path = joinPath (joinPath root d.toList) g ∧ (d = "gameitems" → g = fileName f "json".toList) := by
    rcases hpath with e | e | e
    · exact ⟨"images", f, hp, by decide, by rw [two _ f (by decide) hp, e]; unfold under; simp, nofun⟩
    · exact ⟨"sounds", f, hp, by decide, by rw [two _ f (by decide) hp, e]; unfold under; simp, nofun⟩
    · exact ⟨"gameitems", fileName f "json".toList, fileName_no_slash hp (by decide), by decide, by
        rw [two _ _ (by decide) (fileName_no_slash hp (by decide)), e]; unfold under fileName; simp, fun _ => rfl⟩
  clear hpath
  obtain ⟨d, g, hg, hd, rfl, hjs⟩ := hd
  have hsub : joinPath (joinPath root d.toList) g = under root (d.toList ++ '/' :: g) := by
    refine two _ g ?_ hg
    simp only [List.mem_cons, List.not_mem_nil, or_false] at hd
    rcases hd with rfl | rfl | rfl <;> decide
  have hdn : '/' ∉ d.toList := by
    simp only [List.mem_cons, List.not_mem_nil, or_false] at hd
    rcases hd with rfl | rfl | rfl <;> decide
  -- it is none of the other files
  have htop : ∀ n : String, '/' ∉ n.toList → n.toList ≠ d.toList →
      joinPath (joinPath root d.toList) g ≠ joinPath root n.toList := by
    intro n hn hne e
    rw [hsub, joinPath_under (plain_head hn)] at e
    have := congrArg headPart (under_inj e)
    rw [headPart_sub _ _ hdn, headPart_plain hn] at this
    exact hne this.symm
  have hdir : ∀ (d' : String) (f' : Str), '/' ∉ d'.toList → '/' ∉ f' → d'.toList ≠ d.toList →
      joinPath (joinPath root d.toList) g ≠ joinPath (joinPath root d'.toList) f' := by
    intro d' f' hd' hf' hne e
    rw [hsub, two _ f' (plain_head hd') hf'] at e
    have := congrArg headPart (under_inj e)
    rw [headPart_sub _ _ hdn, headPart_sub _ _ hd'] at this
    exact hne this.symm
  have single : ∀ (n : String) (bs : Bytes), '/' ∉ n.toList → n.toList ≠ d.toList →
      Keeps (joinPath (joinPath root d.toList) g) [.write (joinPath root n.toList) bs] := fun n bs hn hne =>
    keeps_of_writes (P := (· = joinPath root n.toList)) (AllWrites.write rfl AllWrites.nil) (htop n hn hne)
  have nd : ∀ n ∈ ["version.txt", "screenshot.png", "info.json", "collections.json", "gameitems.json", "images.json",
      "sounds.json", "fonts.json", "gamedata.json", "script.vbs", "materials.json", "materials-old.json",
      "materials-physics-old.json", "renderprobes.json"], '/' ∉ n.toList ∧ n.toList ≠ d.toList := by
    simp only [List.mem_cons, List.not_mem_nil, or_false] at hd
    rcases hd with rfl | rfl | rfl <;> decide
  have tops : ∀ n ∈ ["version.txt", "screenshot.png", "info.json", "collections.json", "gameitems.json", "images.json",
      "sounds.json", "fonts.json", "gamedata.json", "script.vbs", "materials.json", "materials-old.json",
      "materials-physics-old.json", "renderprobes.json"], ∀ bs,
      Keeps (joinPath (joinPath root d.toList) g) [.write (joinPath root n.toList) bs] := fun n hn bs =>
    single n bs (nd n hn).1 (nd n hn).2
  have all : Keeps (joinPath (joinPath root d.toList) g) (expandSteps E fmt root t) := by
    unfold expandSteps tableSteps
    refine (((((((((Keeps.append ?_ ?_).append ?_).append ?_).append ?_).append ?_).append ?_).append ?_).append
      ?_).append ?_).append ?_
    · exact tops _ (by decide) _
    · unfold writeScreenshot
      split
      · exact tops _ (by decide) _
      · exact Keeps.nil
    · exact tops "info.json" (by decide) _
    · exact tops "collections.json" (by decide) _
    · by_cases hgi : d = "gameitems"
      · subst hgi
        rw [hjs rfl]
        exact keeps_items E fmt root _ f hp
      · refine keeps_of_writes (writes_items E fmt root _ (P := fun p => p = joinPath root "gameitems.json".toList ∨
          ∃ f : Str, '/' ∉ f ∧ p = joinPath (joinPath root "gameitems".toList) f) (.inl rfl)
          fun f hf _ => .inr ⟨f, hf, rfl⟩) ?_
        rintro (e | ⟨f', hf', e⟩)
        · exact htop "gameitems.json" (by decide) (nd _ (by decide)).2 e
        · exact hdir "gameitems" f' (by decide) hf' (fun e => hgi (String.toList_inj.1 e).symm) e
    · exact keeps_images E root _ (htop _ (by decide) (nd _ (by decide)).2)
    · exact keeps_sounds E root _ (htop _ (by decide) (nd _ (by decide)).2)
    · refine keeps_of_writes (writes_fonts E root _ (P := fun p => p = joinPath root "fonts.json".toList ∨
          ∃ f ∈ fontFiles E t.fonts, p = joinPath (joinPath root "fonts".toList) f) (.inl rfl)
          fun f hf => .inr ⟨f, hf, rfl⟩) ?_
      rintro (e | ⟨f', hf', e⟩)
      · exact htop "fonts.json" (by decide) (nd _ (by decide)).2 e
      · refine hdir "fonts" f' (by decide) (hf f' hf') ?_ e
        simp only [List.mem_cons, List.not_mem_nil, or_false] at hd
        rcases hd with rfl | rfl | rfl <;> decide
    · unfold writeGameDataFiles
      refine Keeps.append (a := [_]) (tops "gamedata.json" (by decide) _) ?_
      split
      · exact tops _ (by decide) _
      · exact keeps_of_writes (P := fun _ => False) AllWrites.fail id
    · unfold writeMaterials
      split
      · exact tops "materials.json" (by decide) _
      · refine Keeps.append (a := [_]) (tops "materials-old.json" (by decide) _) ?_
        split
        · exact tops "materials-physics-old.json" (by decide) _
        · exact Keeps.nil
    · unfold writeRenderProbes
      split
      · exact tops "renderprobes.json" (by decide) _
      · exact Keeps.nil
  exact all fs content hc

end Vpin
