import Verif.Lemmas.Derived
import Verif.Props.Expanded
import Verif.Props.ExpandedFiles
/-
**C89.** Expanding a table with derived meshes puts the meshes of its items beside their files and changes nothing else.
-/
namespace Vpin
variable (E : ExpandEnv)

/-! ### The files -/

theorem get_applyWrites_filter : ∀ (ws : List (Str × Bytes)) (fs gs : Files) (p : Str), fs.get p = gs.get p →
    (applyWrites fs ws).get p = (applyWrites gs (ws.filter fun w => w.1 = p)).get p
  | [], _, _, _, h => h
  | w :: ws, fs, gs, p, h => by
    by_cases hw : w.1 = p
    · rw [List.filter_cons_of_pos (by simpa using hw)]
      refine get_applyWrites_filter ws (fs.insert w.1 w.2) (gs.insert w.1 w.2) p ?_
      rw [Files.get_insert, Files.get_insert, if_pos hw, if_pos hw]
    · rw [List.filter_cons_of_neg (by simpa using hw)]
      refine get_applyWrites_filter ws (fs.insert w.1 w.2) gs p ?_
      rw [Files.get_insert, if_neg hw, h]

theorem get_applyWrites_only : ∀ (ws : List (Str × Bytes)) (fs : Files) (p : Str) (bs : Bytes), (p, bs) ∈ ws →
    (∀ w ∈ ws, w.1 = p → w.2 = bs) → (applyWrites fs ws).get p = some bs
  | [], _, _, _, h, _ => by cases h
  | w :: ws, fs, p, bs, h, ho => by
    show (applyWrites (fs.insert w.1 w.2) ws).get p = _
    by_cases hm : (p, bs) ∈ ws
    · exact get_applyWrites_only ws _ p bs hm fun x hx => ho x (List.mem_cons_of_mem _ hx)
    · rcases List.mem_cons.1 h with h | h
      · subst h
        rw [get_applyWrites_not, Files.get_insert, if_pos rfl]
        intro hp
        obtain ⟨x, hx, e⟩ := List.mem_map.1 hp
        have := ho x (List.mem_cons_of_mem _ hx) e
        obtain ⟨x1, x2⟩ := x
        dsimp only at e this
        subst e; subst this
        exact hm hx
      · exact absurd h hm

theorem runSteps_firstError_ok : ∀ (ts : List Task) (fs fs' : Files), runSteps (firstError ts) fs = (.ok (), fs') →
    ∀ t ∈ ts, t.2 = .ok ()
  | (l, .ok _) :: rest, fs, fs', h, t, ht => by
    rcases List.mem_cons.1 ht with rfl | ht
    · rfl
    · exact runSteps_firstError_ok rest fs fs' h t ht
  | (_, .error e) :: _, fs, fs', h, t, ht => by cases h

/-- steps whose checks see the same succeed alike -/
theorem runSteps_agree (P : Str → Prop) : ∀ (steps : List FsStep) (fs gs fs' : Files),
    (∀ p, P p → fs.get p = gs.get p) → (∀ p, .absent p ∈ steps → P p) → runSteps steps fs = (.ok (), fs') →
    ∃ gs', runSteps steps gs = (.ok (), gs')
  | [], _, gs, _, _, _, _ => ⟨gs, rfl⟩
  | .write p bs :: rest, fs, gs, fs', h, ha, hr => by
    refine runSteps_agree P rest (fs.insert p bs) (gs.insert p bs) fs' ?_ (fun q hq => ha q (List.mem_cons_of_mem _ hq)) hr
    intro q hq
    rw [Files.get_insert, Files.get_insert, h q hq]
  | .absent p :: rest, fs, gs, fs', h, ha, hr => by
    rw [runSteps] at hr ⊢
    rw [← h p (ha p List.mem_cons_self)]
    split at hr
    · cases hr
    · next hc =>
      rw [if_neg hc]
      exact runSteps_agree P rest fs gs fs' h (fun q hq => ha q (List.mem_cons_of_mem _ hq)) hr
  | .fail e :: _, _, _, _, _, _, hr => by cases hr

/-- the files of derived meshes -/
def DerivedPath (root p : Str) : Prop := ∃ g, p = under root ("gameitems".toList ++ '/' :: g) ∧ '-' ∈ g

section
variable [Arith] (A : ItemFns) (T : MeshTables) (fuel : Nat)

theorem derived_computed {stem : Str} {item : GameItemEnum} :
    (∃ ms, derivedMeshes A T fuel stem item = .ok ms) ↔ item.MeshesComputed fuel := by
  cases item <;> simp only [derivedMeshes, GameItemEnum.MeshesComputed]
  case wall w =>
    constructor
    · rintro ⟨ms, h⟩; obtain ⟨m, hm, -⟩ := Res.unbind h; exact ⟨m, hm⟩
    · rintro ⟨m, h⟩; exact ⟨_, Res.thenOk h⟩
  case ramp w =>
    constructor
    · rintro ⟨ms, h⟩; obtain ⟨m, hm, -⟩ := Res.unbind h; exact ⟨m, hm⟩
    · rintro ⟨m, h⟩; exact ⟨_, Res.thenOk h⟩
  case rubber w =>
    constructor
    · rintro ⟨ms, h⟩; obtain ⟨m, hm, -⟩ := Res.unbind h; exact ⟨m, hm⟩
    · rintro ⟨m, h⟩; exact ⟨_, Res.thenOk h⟩
  case flasher w =>
    constructor
    · rintro ⟨ms, h⟩; obtain ⟨m, hm, -⟩ := Res.unbind h; exact ⟨m, hm⟩
    · rintro ⟨m, h⟩; exact ⟨_, Res.thenOk h⟩
  case gate g => split <;> exact ⟨fun _ => trivial, fun _ => ⟨_, rfl⟩⟩
  case light g => split <;> exact ⟨fun _ => trivial, fun _ => ⟨_, rfl⟩⟩
  all_goals exact ⟨fun _ => trivial, fun _ => ⟨_, rfl⟩⟩

theorem derivedTask_ok {fmt : MeshFormat} {stem : Str} {item : GameItemEnum}
    (h : (derivedTask E A T fuel fmt stem item).2 = .ok ()) :
    (itemTask E fmt stem item).2 = .ok () ∧ ∃ ms, derivedMeshes A T fuel stem item = .ok ms ∧
      (derivedTask E A T fuel fmt stem item).1
        = (itemTask E fmt stem item).1 ++ ms.flatMap fun d => meshFiles E fmt d.stem d.name d.mesh := by
  unfold derivedTask at h ⊢
  dsimp only at h ⊢
  cases hr : (itemTask E fmt stem item).2 with
  | error e => rw [hr] at h; dsimp only at h; rw [hr] at h; cases h
  | ok u =>
    rw [hr] at h
    dsimp only at h ⊢
    cases hm : derivedMeshes A T fuel stem item with
    | error e => rw [hm] at h; cases h
    | ok ms => exact ⟨rfl, ms, rfl, rfl⟩

omit [Arith] in
/-- names with a dash behind a stem determine it -/
theorem derivedBase_inj {U : Unicode} {n n' : Str} {g g' : GameItemEnum} (h : StemOf U n g) (h' : StemOf U n' g')
    (e : derivedBase n g = derivedBase n' g') : n = n' := by
  have key : ∀ {n : Str} {g : GameItemEnum}, StemOf U n g →
      derivedBase n g = n ∨ n = g.type_name ++ ".json".toList ∧ derivedBase n g = g.type_name := by
    intro n g h
    have := h.trim
    cases g <;> first | exact .inl rfl | exact this
  have dot : ∀ {n : Str} {g : GameItemEnum}, StemOf U n g → '.' ∈ n := by
    intro n g h
    obtain ⟨r, e, -⟩ := h.shape
    rw [e]; simp
  rcases key h with h1 | ⟨h1, h2⟩ <;> rcases key h' with h3 | ⟨h3, h4⟩
  · rw [← h1, e, h3]
  · rw [h1, h4] at e
    exact absurd (e ▸ dot h) (type_no_dot g')
  · rw [h2, h3] at e
    exact absurd (e.symm ▸ dot h') (type_no_dot g)
  · rw [h2, h4] at e
    rw [h1, h3, e]

omit [Arith] in
theorem dash_cut : ∀ {a b s t : Str}, '-' ∉ a → '-' ∉ b → s.head? = some '-' → t.head? = some '-' → a ++ s = b ++ t →
    a = b ∧ s = t
  | [], [], _, _, _, _, _, _, h => ⟨rfl, h⟩
  | [], c :: b, s, t, _, hb, hs, _, h => by
    rw [List.nil_append] at h
    rw [h] at hs
    cases hs
    exact absurd List.mem_cons_self hb
  | c :: a, [], s, t, ha, _, _, ht, h => by
    rw [List.nil_append] at h
    rw [← h] at ht
    cases ht
    exact absurd List.mem_cons_self ha
  | c :: a, d :: b, s, t, ha, hb, hs, ht, h => by
    rw [List.cons_append, List.cons_append] at h
    obtain ⟨h1, h2⟩ := List.cons.inj h
    obtain ⟨h3, h4⟩ := dash_cut (fun hm => ha (List.mem_cons_of_mem _ hm)) (fun hm => hb (List.mem_cons_of_mem _ hm))
      hs ht h2
    exact ⟨by rw [h1, h3], h4⟩

omit [Arith] in
theorem derivedBase_plain {U : Unicode} {n : Str} {g : GameItemEnum} (h : StemOf U n g) :
    '-' ∉ derivedBase n g ∧ '/' ∉ derivedBase n g := by
  have ht : '-' ∉ trimJson n ∧ '/' ∉ trimJson n := by
    obtain ⟨a, ha⟩ := trimJson_prefix n
    have h1 := h.no_dash
    have h2 := h.no_slash
    rw [ha] at h1 h2
    exact ⟨fun hm => h1 (List.mem_append_left _ hm), fun hm => h2 (List.mem_append_left _ hm)⟩
  cases g <;> first | exact ⟨h.no_dash, h.no_slash⟩ | exact ht

theorem derived_stem_shape {stem : Str} {item : GameItemEnum} {ms : List DerivedMesh}
    (h : derivedMeshes A T fuel stem item = .ok ms) : ∀ d ∈ ms, ∃ s, d.stem = derivedBase stem item ++ s ∧
      s.head? = some '-' ∧ '/' ∉ s := by
  intro d hd
  have := (derived_stems A T fuel h).subset (List.mem_map_of_mem (f := (·.stem)) hd)
  obtain ⟨s, hs, e⟩ := List.mem_map.1 this
  exact ⟨s, e.symm, derivedEnds_shape item s hs⟩

theorem derived_stems_nodup {stem : Str} {item : GameItemEnum} {ms : List DerivedMesh}
    (h : derivedMeshes A T fuel stem item = .ok ms) : (ms.map (·.stem)).Nodup := by
  refine List.Nodup.sublist (derived_stems A T fuel h) ?_
  have := derivedEnds_nodup item
  unfold List.Nodup at this ⊢
  rw [List.pairwise_map]
  exact this.imp fun hab e => hab (List.append_cancel_left e)

omit [Arith] in
theorem head_mem {s : Str} (h : s.head? = some '-') : '-' ∈ s := by
  cases s with
  | nil => cases h
  | cons c s => cases h; exact List.mem_cons_self

/-- the files of the derived meshes of an item have a dash in their names -/
theorem derived_file {U : Unicode} {fmt : MeshFormat} {stem : Str} {item : GameItemEnum} {ms : List DerivedMesh}
    (hs : StemOf U stem item) (h : derivedMeshes A T fuel stem item = .ok ms) {d : DerivedMesh} (hd : d ∈ ms)
    {w : Str × Bytes} (hw : w ∈ meshFiles E fmt d.stem d.name d.mesh) : '-' ∈ w.1 ∧ '/' ∉ w.1 := by
  have hm : w.1 ∈ fmt.exts.map (fileName d.stem) := by
    rw [← meshFiles_names E fmt d.stem d.name d.mesh]
    exact List.mem_map_of_mem (f := (·.1)) hw
  obtain ⟨e, he, hf⟩ := List.mem_map.1 hm
  obtain ⟨s, e1, h1, h2⟩ := derived_stem_shape A T fuel h d hd
  rw [← hf]
  constructor
  · unfold fileName
    rw [e1]
    simp [head_mem h1]
  · refine fileName_no_slash ?_ (exts_plain fmt e he).2.1
    rw [e1, List.mem_append, not_or]
    exact ⟨(derivedBase_plain hs).2, h2⟩

omit [Arith] in
theorem map_nodup_inj {α β : Type} {f : α → β} : ∀ {l : List α}, (l.map f).Nodup → ∀ {a b : α}, a ∈ l → b ∈ l →
    f a = f b → a = b
  | c :: l, hn, a, b, ha, hb, h => by
    rw [List.map_cons, List.nodup_cons] at hn
    rcases List.mem_cons.1 ha with h1 | h1 <;> rcases List.mem_cons.1 hb with h2 | h2
    · rw [h1, h2]
    · rw [h1] at h
      exact absurd (h ▸ List.mem_map_of_mem (f := f) h2) hn.1
    · rw [h2] at h
      exact absurd (h ▸ List.mem_map_of_mem (f := f) h1) hn.1
    · exact map_nodup_inj hn.2 h1 h2 h

/-- a file of a derived mesh belongs to one mesh -/
theorem derived_owner {U : Unicode} {fmt : MeshFormat} {x y : Str × GameItemEnum} {ms ns : List DerivedMesh}
    (sx : StemOf U x.1 x.2) (sy : StemOf U y.1 y.2) (hxy : x.1 = y.1 → x = y)
    (hx : derivedMeshes A T fuel x.1 x.2 = .ok ms) (hy : derivedMeshes A T fuel y.1 y.2 = .ok ns)
    {d d' : DerivedMesh} (hd : d ∈ ms) (hd' : d' ∈ ns) {w w' : Str × Bytes}
    (hw : w ∈ meshFiles E fmt d.stem d.name d.mesh) (hw' : w' ∈ meshFiles E fmt d'.stem d'.name d'.mesh)
    (h : w.1 = w'.1) : w = w' := by
  have hm : w.1 ∈ fmt.exts.map (fileName d.stem) := by
    rw [← meshFiles_names E fmt d.stem d.name d.mesh]
    exact List.mem_map_of_mem (f := (·.1)) hw
  have hm' : w'.1 ∈ fmt.exts.map (fileName d'.stem) := by
    rw [← meshFiles_names E fmt d'.stem d'.name d'.mesh]
    exact List.mem_map_of_mem (f := (·.1)) hw'
  obtain ⟨e, he, hf⟩ := List.mem_map.1 hm
  obtain ⟨e', he', hf'⟩ := List.mem_map.1 hm'
  have hst : d.stem = d'.stem :=
    (fileName_inj (exts_plain fmt e he).1 (exts_plain fmt e' he').1 (by rw [hf, hf', h])).1
  obtain ⟨s, e1, h1, -⟩ := derived_stem_shape A T fuel hx d hd
  obtain ⟨s', e1', h1', -⟩ := derived_stem_shape A T fuel hy d' hd'
  have hb := (dash_cut (derivedBase_plain sx).1 (derivedBase_plain sy).1 h1 h1' (by rw [← e1, ← e1', hst])).1
  have hz := hxy (derivedBase_inj sx sy hb)
  subst hz
  rw [hx] at hy
  cases hy
  have hdd : d = d' := by
    have hn := derived_stems_nodup A T fuel hx
    exact map_nodup_inj hn hd hd' hst
  subst hdd
  have hn : ((meshFiles E fmt d.stem d.name d.mesh).map (·.1)).Nodup := by
    rw [meshFiles_names]; exact exts_nodup fmt d.stem
  exact map_nodup_inj hn hw hw' h

/-! ### The steps -/

omit [Arith] in
theorem not_derived_head {root f : Str} (h : headPart f ≠ "gameitems".toList) : ¬ DerivedPath root (under root f) := by
  rintro ⟨g, e, -⟩
  rw [under_inj e] at h
  exact h (headPart_sub _ g (by decide))

omit [Arith] in
/-- without the option no file of a derived mesh is written -/
theorem base_not_derived (fmt : MeshFormat) (root : Str) (t : VPX)
    (hi : ∀ f ∈ imageFiles E t.images, '/' ∉ f) (hs : ∀ f ∈ soundFiles E t.sounds, '/' ∉ f)
    (hf : ∀ f ∈ fontFiles E t.fonts, '/' ∉ f) :
    ∀ w ∈ writesOf (expandSteps E fmt root t), ¬ DerivedPath root w.1 := by
  intro w hw
  rcases writes_known E fmt root t w hw with ⟨n, hn, e⟩ | ⟨f, h1, h2, e⟩ | ⟨f, h, e⟩ | ⟨f, h, e⟩ | ⟨f, h, e⟩ <;> rw [e]
  · have : ∀ n ∈ ["version.txt", "screenshot.png", "info.json", "collections.json", "gameitems.json", "images.json",
      "sounds.json", "fonts.json", "gamedata.json", "script.vbs", "materials.json", "materials-old.json",
      "materials-physics-old.json", "renderprobes.json"],
        n.toList.head? ≠ some '/' ∧ headPart n.toList ≠ "gameitems".toList := by decide
    rw [joinPath_under (this n hn).1]
    exact not_derived_head (this n hn).2
  · rw [joinPath_two (d := "gameitems".toList) (by decide) h1]
    rintro ⟨g, e, hg⟩
    have e := under_inj e
    rw [(List.cons.inj (List.append_cancel_left e)).2] at h2
    exact h2 hg
  · rw [joinPath_two (d := "images".toList) (by decide) (hi f h)]
    exact not_derived_head (by rw [headPart_sub _ f (by decide)]; decide)
  · rw [joinPath_two (d := "sounds".toList) (by decide) (hs f h)]
    exact not_derived_head (by rw [headPart_sub _ f (by decide)]; decide)
  · rw [joinPath_two (d := "fonts".toList) (by decide) (hf f h)]
    exact not_derived_head (by rw [headPart_sub _ f (by decide)]; decide)

omit [Arith] in
/-- the steps before those of the items, and behind them -/
theorem tableSteps_parts (root : Str) (t : VPX) : ∃ a b, (∀ items, tableSteps E items root t = a ++ items ++ b) ∧
    ((∀ f ∈ imageFiles E t.images, '/' ∉ f) → (∀ f ∈ soundFiles E t.sounds, '/' ∉ f) →
      ∀ p, .absent p ∈ b → ¬ DerivedPath root p) := by
  refine ⟨[.write (joinPath root "version.txt".toList) (encodeUtf8 t.version.toText)]
    ++ writeScreenshot root t.info
    ++ [jsonStep E root "info.json" (jInfo none) (t.info, t.custominfotags)]
    ++ [jsonStep E root "collections.json" (jVec jCollection) t.collections],
    writeImages E root t.images ++ (writeSounds E root t.sounds ++ (writeFonts E root t.fonts
      ++ (writeGameDataFiles E root t.gamedata ++ (writeMaterials E root t.gamedata
      ++ writeRenderProbes E root t.gamedata)))), fun items => ?_, ?_⟩
  · unfold tableSteps
    simp only [List.append_assoc]
  · intro hi hs p hp
    simp only [List.mem_append] at hp
    have guarded : ∀ (d : String) (l : List (Str × Option (Res Bytes))), d.toList ≠ "gameitems".toList → '/' ∉ d.toList →
        (∀ x ∈ l, ∃ f, x.1 = d.toList ++ '/' :: f) → .absent p ∈ guardedSteps root l → ¬ DerivedPath root p := by
      intro d l hd hd' hl hm
      unfold guardedSteps at hm
      obtain ⟨x, hx, hm⟩ := List.mem_flatMap.1 hm
      rcases List.mem_cons.1 hm with e | hm
      · cases e
        obtain ⟨f, e⟩ := hl x hx
        rw [e]
        exact not_derived_head (by rw [headPart_sub _ f hd']; exact hd)
      · unfold tailStep at hm
        split at hm
        · cases hm
        · rcases List.mem_cons.1 hm with hm | hm <;> cases hm
        · rcases List.mem_cons.1 hm with hm | hm <;> cases hm
    rcases hp with hp | hp | hp | hp | hp | hp
    · rw [writeImages_eq E root _ hi] at hp
      rcases List.mem_cons.1 hp with hp | hp
      · cases hp
      · refine guarded "images" _ (by decide) (by decide) ?_ hp
        intro x hx
        obtain ⟨y, -, rfl⟩ := List.mem_map.1 hx
        exact ⟨_, rfl⟩
    · rw [writeSounds_eq E root _ hs] at hp
      rcases List.mem_cons.1 hp with hp | hp
      · cases hp
      · refine guarded "sounds" _ (by decide) (by decide) ?_ hp
        intro x hx
        obtain ⟨y, -, rfl⟩ := List.mem_map.1 hx
        exact ⟨_, rfl⟩
    · unfold writeFonts at hp
      rcases List.mem_cons.1 hp with hp | hp
      · cases hp
      · obtain ⟨x, -, hx⟩ := List.mem_map.1 hp
        cases hx
    · unfold writeGameDataFiles at hp
      rcases List.mem_cons.1 hp with hp | hp
      · cases hp
      · split at hp <;> rcases List.mem_cons.1 hp with hp | hp <;> cases hp
    · unfold writeMaterials at hp
      split at hp
      · rcases List.mem_cons.1 hp with hp | hp <;> cases hp
      · rcases List.mem_cons.1 hp with hp | hp
        · cases hp
        · split at hp
          · rcases List.mem_cons.1 hp with hp | hp <;> cases hp
          · cases hp
    · unfold writeRenderProbes at hp
      split at hp
      · rcases List.mem_cons.1 hp with hp | hp <;> cases hp
      · cases hp

omit [Arith] in
/-- what writing the items writes -/
theorem writesOf_itemTasks (task : Str → GameItemEnum → Task) (root : Str) {items : List GameItemEnum} {stems : List Str}
    (h : itemStems E.U [] items = .ok stems) : writesOf (writeItemTasks E task root items)
      = (joinPath root "gameitems.json".toList,
          writeJson E.J (jVec jGameItemInfo) ((stems.zip items).map fun x => x.2.info (itemFile x.1))) ::
        (stems.zip items).flatMap fun x => (task x.1 x.2).1.map fun w =>
          (joinPath (joinPath root "gameitems".toList) w.1, w.2) := by
  unfold writeItemTasks
  rw [h]
  dsimp only
  rw [writesOf_append, writesOf_append, writesOf_append, absents_writes, firstError_writes, List.append_nil,
    List.nil_append]
  show _ :: writesOf (List.flatMap _ _) = _
  refine congrArg (List.cons _) ?_
  generalize stems.zip items = zs
  induction zs with
  | nil => rfl
  | cons x zs ih =>
    rw [List.map_cons, List.flatMap_cons, List.flatMap_cons, writesOf_append, ih]
    exact congrArg (· ++ _) (writesOf_writes _ _ _)

omit [Arith] in
/-- writing the items succeeds if none of their files are there and every task succeeds -/
theorem itemTasks_ok (task : Str → GameItemEnum → Task) (root : Str) {items : List GameItemEnum} {stems : List Str}
    (h : itemStems E.U [] items = .ok stems) (fs : Files) :
    (∃ fs', runSteps (writeItemTasks E task root items) fs = (.ok (), fs')) ↔
      (∃ fs', runSteps (stems.map fun stem => .absent (joinPath (joinPath root "gameitems".toList) (itemFile stem))) fs
        = (.ok (), fs')) ∧ ∀ x ∈ stems.zip items, (task x.1 x.2).2 = .ok () := by
  unfold writeItemTasks
  rw [h]
  dsimp only
  constructor
  · rintro ⟨fs', hr⟩
    obtain ⟨f1, h1, h2⟩ := runSteps_append _ _ _ _ hr
    obtain ⟨f2, h3, h4⟩ := runSteps_append _ _ _ _ h1
    obtain ⟨f3, h5, h6⟩ := runSteps_append _ _ _ _ h3
    refine ⟨⟨f3, h5⟩, fun x hx => ?_⟩
    exact runSteps_firstError_ok _ _ _ h2 _ (List.mem_map.2 ⟨x, hx, rfl⟩)
  · rintro ⟨⟨f1, h1⟩, h2⟩
    rw [firstError_nil _ (by
      intro t ht
      obtain ⟨x, hx, rfl⟩ := List.mem_map.1 ht
      exact h2 x hx), List.append_nil, List.append_assoc, runSteps_append_of _ _ _ _ h1]
    refine ⟨_, runSteps_writes _ _ ?_⟩
    intro s hs
    rcases List.mem_cons.1 hs with rfl | hs
    · exact ⟨_, _, rfl⟩
    · obtain ⟨t, -, hs⟩ := List.mem_flatMap.1 hs
      obtain ⟨w, -, rfl⟩ := List.mem_map.1 hs
      exact ⟨_, _, rfl⟩

theorem derivedTask_ok_iff {fmt : MeshFormat} {stem : Str} {item : GameItemEnum} :
    (derivedTask E A T fuel fmt stem item).2 = .ok () ↔
      (itemTask E fmt stem item).2 = .ok () ∧ item.MeshesComputed fuel := by
  constructor
  · intro h
    obtain ⟨h1, ms, h2, -⟩ := derivedTask_ok E A T fuel h
    exact ⟨h1, (derived_computed A T fuel).1 ⟨ms, h2⟩⟩
  · rintro ⟨h1, h2⟩
    obtain ⟨ms, h2⟩ := (derived_computed A T fuel (stem := stem)).2 h2
    unfold derivedTask
    dsimp only
    rw [h1, h2]

/-- Where there is no derived mesh, the writes of the two ways to write the items are the same. -/
theorem items_filter (fmt : MeshFormat) (root : Str) {items : List GameItemEnum} {stems : List Str}
    (h : itemStems E.U [] items = .ok stems)
    (hok : ∀ x ∈ stems.zip items, (derivedTask E A T fuel fmt x.1 x.2).2 = .ok ()) {p : Str} (hp : ¬ DerivedPath root p) :
    (writesOf (writeItemTasks E (derivedTask E A T fuel fmt) root items)).filter (fun w => w.1 = p)
      = (writesOf (writeItems E fmt root items)).filter fun w => w.1 = p := by
  unfold writeItems
  rw [writesOf_itemTasks E _ root h, writesOf_itemTasks E _ root h, List.filter_cons, List.filter_cons]
  have hz := (stems_zip E h).1
  generalize stems.zip items = zs at hok hz
  have : (zs.flatMap fun x => (derivedTask E A T fuel fmt x.1 x.2).1.map fun w =>
        (joinPath (joinPath root "gameitems".toList) w.1, w.2)).filter (fun w => w.1 = p)
      = (zs.flatMap fun x => (itemTask E fmt x.1 x.2).1.map fun w =>
        (joinPath (joinPath root "gameitems".toList) w.1, w.2)).filter fun w => w.1 = p := by
    induction zs with
    | nil => rfl
    | cons x zs ih =>
      rw [List.flatMap_cons, List.flatMap_cons, List.filter_append, List.filter_append,
        ih (fun y hy => hok y (List.mem_cons_of_mem _ hy)) fun y hy => hz y (List.mem_cons_of_mem _ hy)]
      refine congrArg (· ++ _) ?_
      obtain ⟨-, ms, hms, e⟩ := derivedTask_ok E A T fuel (hok x List.mem_cons_self)
      rw [e, List.map_append, List.filter_append]
      have : ((ms.flatMap fun d => meshFiles E fmt d.stem d.name d.mesh).map fun w =>
          (joinPath (joinPath root "gameitems".toList) w.1, w.2)).filter (fun w => w.1 = p) = [] := by
        rw [List.filter_eq_nil_iff]
        intro w hw hwp
        obtain ⟨v, hv, rfl⟩ := List.mem_map.1 hw
        obtain ⟨d, hd, hv⟩ := List.mem_flatMap.1 hv
        obtain ⟨h1, h2⟩ := derived_file E A T fuel (hz x List.mem_cons_self) hms hd hv
        refine hp ⟨v.1, ?_, h1⟩
        rw [← of_decide_eq_true hwp, joinPath_two (d := "gameitems".toList) (by decide) h2]
      rw [this, List.append_nil]
  rw [this]

/-- **C89.** With derived meshes a table can be expanded exactly if it can be without them and the meshes of its walls,
ramps, rubbers and flashers can be computed. -/
theorem C89_succeeds (fmt : MeshFormat) (root : Str) (t : VPX) (fs : Files)
    (hi : ∀ f ∈ imageFiles E t.images, '/' ∉ f) (hs : ∀ f ∈ soundFiles E t.sounds, '/' ∉ f) :
    (∃ fs', expandDerived E A T fuel fmt root t fs = (.ok (), fs')) ↔
      (∃ fs', expand E fmt root t fs = (.ok (), fs')) ∧ ∀ g ∈ t.gameitems, g.MeshesComputed fuel := by
  obtain ⟨a, b, hab, hb⟩ := tableSteps_parts E root t
  have hb := hb hi hs
  obtain ⟨stems, h1, -, -⟩ := itemStems_ok (U := E.U) t.gameitems []
  obtain ⟨-, -, hlen⟩ := stems_zip E h1
  have hzip : (∀ x ∈ stems.zip t.gameitems, (derivedTask E A T fuel fmt x.1 x.2).2 = .ok ()) ↔
      (∀ x ∈ stems.zip t.gameitems, (itemTask E fmt x.1 x.2).2 = .ok ()) ∧ ∀ g ∈ t.gameitems, g.MeshesComputed fuel := by
    constructor
    · intro h
      refine ⟨fun x hx => ((derivedTask_ok_iff E A T fuel).1 (h x hx)).1, fun g hg => ?_⟩
      obtain ⟨i, hi, rfl⟩ := List.getElem_of_mem hg
      have hm : (stems[i]'(by omega), t.gameitems[i]) ∈ stems.zip t.gameitems := by
        rw [List.mem_iff_getElem]
        exact ⟨i, by simp; omega, by simp⟩
      exact ((derivedTask_ok_iff E A T fuel).1 (h _ hm)).2
    · rintro ⟨h2, h3⟩ x hx
      exact (derivedTask_ok_iff E A T fuel).2 ⟨h2 x hx, h3 x.2 (List.of_mem_zip (a := x.1) (b := x.2) hx).2⟩
  unfold expandDerived expand expandSteps
  rw [hab, hab]
  -- after the items
  have agree : (∀ x ∈ stems.zip t.gameitems, (derivedTask E A T fuel fmt x.1 x.2).2 = .ok ()) → ∀ fs0 f1 f2,
      runSteps (writeItems E fmt root t.gameitems) fs0 = (.ok (), f1) →
      runSteps (writeItemTasks E (derivedTask E A T fuel fmt) root t.gameitems) fs0 = (.ok (), f2) →
      ∀ p, ¬ DerivedPath root p → f1.get p = f2.get p := by
    intro hok fs0 f1 f2 r1 r2 p hp
    rw [runSteps_ok _ _ _ r1, runSteps_ok _ _ _ r2, get_applyWrites_filter _ fs0 fs0 p rfl,
      get_applyWrites_filter (writesOf (writeItemTasks E (derivedTask E A T fuel fmt) root t.gameitems)) fs0 fs0 p rfl,
      items_filter E A T fuel fmt root h1 hok hp]
  constructor
  · rintro ⟨fs', hr⟩
    obtain ⟨f2, hr, r3⟩ := runSteps_append _ _ _ _ hr
    obtain ⟨f0, r1, r2⟩ := runSteps_append _ _ _ _ hr
    obtain ⟨k1, k2⟩ := (itemTasks_ok E _ root h1 f0).1 ⟨f2, r2⟩
    obtain ⟨k3, k4⟩ := hzip.1 k2
    obtain ⟨f3, r4⟩ := (itemTasks_ok E (itemTask E fmt) root h1 f0).2 ⟨k1, k3⟩
    have r4 : runSteps (writeItems E fmt root t.gameitems) f0 = (.ok (), f3) := r4
    obtain ⟨f4, r5⟩ := runSteps_agree (fun p => ¬ DerivedPath root p) b f2 f3 fs'
      (fun p hp => (agree k2 f0 f3 f2 r4 r2 p hp).symm) hb r3
    refine ⟨⟨f4, ?_⟩, k4⟩
    rw [List.append_assoc, runSteps_append_of _ _ _ _ r1, runSteps_append_of _ _ _ _ r4]
    exact r5
  · rintro ⟨⟨fs', hr⟩, k4⟩
    obtain ⟨f3, hr, r3⟩ := runSteps_append _ _ _ _ hr
    obtain ⟨f0, r1, r4⟩ := runSteps_append _ _ _ _ hr
    obtain ⟨k1, k3⟩ := (itemTasks_ok E _ root h1 f0).1 ⟨f3, r4⟩
    have k2 := hzip.2 ⟨k3, k4⟩
    obtain ⟨f2, r2⟩ := (itemTasks_ok E (derivedTask E A T fuel fmt) root h1 f0).2 ⟨k1, k2⟩
    obtain ⟨f4, r5⟩ := runSteps_agree (fun p => ¬ DerivedPath root p) b f3 f2 fs'
      (fun p hp => agree k2 f0 f3 f2 r4 r2 p hp) hb r3
    refine ⟨f4, ?_⟩
    rw [List.append_assoc, runSteps_append_of _ _ _ _ r1, runSteps_append_of _ _ _ _ r2]
    exact r5

/-- after both, files that are not of derived meshes are the same -/
theorem derived_agree (fmt : MeshFormat) (root : Str) (t : VPX) (fs fs' : Files)
    (he : expandDerived E A T fuel fmt root t fs = (.ok (), fs')) {p : Str} (hp : ¬ DerivedPath root p) :
    fs'.get p = (applyWrites fs (writesOf (expandSteps E fmt root t))).get p := by
  obtain ⟨a, b, hab, -⟩ := tableSteps_parts E root t
  obtain ⟨stems, h1, -, -⟩ := itemStems_ok (U := E.U) t.gameitems []
  have hr := he
  unfold expandDerived at hr
  rw [hab] at hr
  obtain ⟨f2, hr', -⟩ := runSteps_append _ _ _ _ hr
  obtain ⟨f0, -, r2⟩ := runSteps_append _ _ _ _ hr'
  have k2 := ((itemTasks_ok E _ root h1 f0).1 ⟨f2, r2⟩).2
  rw [runSteps_ok _ _ _ hr]
  unfold expandSteps
  rw [hab, get_applyWrites_filter _ fs fs p rfl,
    get_applyWrites_filter (writesOf (a ++ writeItems E fmt root t.gameitems ++ b)) fs fs p rfl]
  simp only [writesOf_append, List.filter_append]
  rw [items_filter E A T fuel fmt root h1 k2 hp]

/-- **C89.** Every file that is written without derived meshes is also written with them, with the same content. -/
theorem C89_same_files (fmt : MeshFormat) (root : Str) (t : VPX) (fs fs0 fs1 : Files)
    (hi : ∀ f ∈ imageFiles E t.images, '/' ∉ f) (hs : ∀ f ∈ soundFiles E t.sounds, '/' ∉ f)
    (hf : ∀ f ∈ fontFiles E t.fonts, '/' ∉ f) (hdir : EmptyDir root fs)
    (h0 : expand E fmt root t fs = (.ok (), fs0)) (h1 : expandDerived E A T fuel fmt root t fs = (.ok (), fs1))
    (p : Str) (bs : Bytes) (hp : fs0.get p = some bs) : fs1.get p = some bs := by
  rw [runSteps_ok _ _ _ h0] at hp
  by_cases hd : DerivedPath root p
  · rw [get_applyWrites_not] at hp
    · obtain ⟨g, rfl, -⟩ := hd
      rw [show under root _ = root ++ '/' :: _ from rfl, hdir] at hp
      cases hp
    · intro hm
      obtain ⟨w, hw, rfl⟩ := List.mem_map.1 hm
      exact base_not_derived E fmt root t hi hs hf w hw hd
  · rw [derived_agree E A T fuel fmt root t fs fs1 h1 hd]
    exact hp

/-- **C89.** A table that was expanded into an empty directory with derived meshes is restored from it: the files of the
derived meshes do not disturb reading it. -/
theorem C89_table_restored (S : StdText E.T) (fmt : MeshFormat) (root : Str) (t : VPX) (fs fs' : Files)
    (ht : t.Expandable E fmt) (hdir : EmptyDir root fs)
    (he : expandDerived E A T fuel fmt root t fs = (.ok (), fs')) :
    ∃ t', assemble E root fs' = .ok t' ∧ SameTable E t t' := by
  obtain ⟨d, hd⟩ := ht.gamedata.code
  have hcode : t.gamedata.code.toBytes = .ok d := by rw [hd]; exact C05_script_bytes_preserved d
  obtain ⟨stems, h1, h2, h3⟩ := stems_of E ht.items
  have hw := writesOf_table E root h1 h3 ht.imageNames ht.soundNames ht.fontNames hcode
  have he' := he
  unfold expandDerived tableSteps at he'
  obtain ⟨f9, he', -⟩ := runSteps_append _ _ _ _ he'
  obtain ⟨f8, he', -⟩ := runSteps_append _ _ _ _ he'
  obtain ⟨f7, he', -⟩ := runSteps_append _ _ _ _ he'
  obtain ⟨f6, he', -⟩ := runSteps_append _ _ _ _ he'
  obtain ⟨f5, he', hsnd⟩ := runSteps_append _ _ _ _ he'
  obtain ⟨f4, he', himg⟩ := runSteps_append _ _ _ _ he'
  rw [writeImages_eq E root _ ht.imageNames] at himg
  rw [writeSounds_eq E root _ ht.soundNames] at hsnd
  have hg := tableSegs_grouped E (code := d) h3 (guardedFiles_nodup himg) (guardedFiles_nodup hsnd) ht.fontsDiffer
  refine assemble_back E S ht hd h2 h3 ?_
  have base := dirHas_of hg hdir
  rw [← hw] at base
  have ag := fun p hp => derived_agree E A T fuel fmt root t fs fs' he (p := p) hp
  refine ⟨hg, fun s hs w hws => ?_, fun f hnd hfm => ?_⟩
  · rw [ag, base.there s hs w hws]
    refine base_not_derived E fmt root t ht.imageNames ht.soundNames ht.fontNames (under root w.1, w.2) ?_
    rw [hw]
    exact List.mem_map.2 ⟨w, List.mem_flatMap.2 ⟨s, hs, hws⟩, rfl⟩
  · rw [ag, base.other f hnd hfm]
    rintro ⟨g, e, hg⟩
    exact hnd g (under_inj e) hg

/-! ### The meshes -/

/-- `C89_files`, with the names of the JSON files -/
theorem C89_files_named (fmt : MeshFormat) (root : Str) (t : VPX) (fs fs0 fs1 : Files)
    (hi : ∀ f ∈ imageFiles E t.images, '/' ∉ f) (hs : ∀ f ∈ soundFiles E t.sounds, '/' ∉ f)
    (hf : ∀ f ∈ fontFiles E t.fonts, '/' ∉ f) (hn : ∀ g ∈ t.gameitems, g.name ≠ "json".toList)
    (h0 : expand E fmt root t fs = (.ok (), fs0)) (h1 : expandDerived E A T fuel fmt root t fs = (.ok (), fs1)) :
    ∃ stems : List Str, itemStems E.U [] t.gameitems = .ok stems ∧ stems.length = t.gameitems.length ∧
      (∀ x ∈ stems.zip t.gameitems,
        fs1.get (joinPath (joinPath root "gameitems".toList) (x.1 ++ ".json".toList))
          = fs0.get (joinPath (joinPath root "gameitems".toList) (x.1 ++ ".json".toList)) ∧
        ∀ file object m, Derives A T fuel x.1 x.2 file object m →
          ∀ w ∈ meshFiles E fmt file object (m.wrapped x.2),
            fs1.get (joinPath (joinPath root "gameitems".toList) w.1) = some w.2) ∧
      ∀ p, fs1.get p ≠ fs0.get p → ∃ x ∈ stems.zip t.gameitems, ∃ file object m, Derives A T fuel x.1 x.2 file object m ∧
        ∃ w ∈ meshFiles E fmt file object (m.wrapped x.2), p = joinPath (joinPath root "gameitems".toList) w.1 := by
  obtain ⟨a, b, hab, -⟩ := tableSteps_parts E root t
  obtain ⟨stems, hst, -, -⟩ := itemStems_ok (U := E.U) t.gameitems []
  obtain ⟨z1, z2, z3⟩ := stems_zip E hst
  have hr := h1
  unfold expandDerived at hr
  rw [hab] at hr
  obtain ⟨f2, hr', -⟩ := runSteps_append _ _ _ _ hr
  obtain ⟨f0, -, r2⟩ := runSteps_append _ _ _ _ hr'
  have k2 := ((itemTasks_ok E _ root hst f0).1 ⟨f2, r2⟩).2
  have hr := runSteps_ok _ _ _ hr
  have hbase := base_not_derived E fmt root t hi hs hf
  unfold expandSteps at hbase
  rw [hab] at hbase
  simp only [writesOf_append, List.mem_append] at hbase
  have htrim : ∀ x ∈ stems.zip t.gameitems, trimJson x.1 = x.1 := fun x hx =>
    trimJson_of_not ((z1 x hx).not_json (hn x.2 (List.of_mem_zip (a := x.1) (b := x.2) hx).2))
  have hinj : ∀ x ∈ stems.zip t.gameitems, ∀ y ∈ stems.zip t.gameitems, x.1 = y.1 → x = y := fun x hx y hy h =>
    map_nodup_inj z2 hx hy h
  -- a write to a file of a derived mesh
  have hwr : ∀ w ∈ writesOf (a ++ writeItemTasks E (derivedTask E A T fuel fmt) root t.gameitems ++ b),
      DerivedPath root w.1 → ∃ x ∈ stems.zip t.gameitems, ∃ ms, derivedMeshes A T fuel x.1 x.2 = .ok ms ∧
        ∃ d ∈ ms, ∃ v ∈ meshFiles E fmt d.stem d.name d.mesh,
          w = (joinPath (joinPath root "gameitems".toList) v.1, v.2) := by
    intro w hw hp
    simp only [writesOf_append, List.mem_append] at hw
    rcases hw with (hw | hw) | hw
    · exact absurd hp (hbase w (.inl (.inl hw)))
    · have hb := fun h => hbase w (.inl (.inr h))
      unfold writeItems at hb
      rw [writesOf_itemTasks E _ root hst] at hw hb
      rcases List.mem_cons.1 hw with hw | hw
      · exact absurd hp (hb (List.mem_cons.2 (.inl hw)))
      · obtain ⟨x, hx, hw⟩ := List.mem_flatMap.1 hw
        obtain ⟨-, ms, hms, e⟩ := derivedTask_ok E A T fuel (k2 x hx)
        rw [e, List.map_append, List.mem_append] at hw
        rcases hw with hw | hw
        · exact absurd hp (hb (List.mem_cons_of_mem _ (List.mem_flatMap.2 ⟨x, hx, hw⟩)))
        · obtain ⟨v, hv, rfl⟩ := List.mem_map.1 hw
          obtain ⟨d, hd, hv⟩ := List.mem_flatMap.1 hv
          exact ⟨x, hx, ms, hms, d, hd, v, hv, rfl⟩
    · exact absurd hp (hbase w (.inr hw))
  have path : ∀ {v : Str}, '/' ∉ v → joinPath (joinPath root "gameitems".toList) v
      = under root ("gameitems".toList ++ '/' :: v) := fun h => joinPath_two (d := "gameitems".toList) (by decide) h
  have hag : ∀ p, ¬ DerivedPath root p → fs1.get p = fs0.get p := fun p hp => by
    rw [derived_agree E A T fuel fmt root t fs fs1 h1 hp, runSteps_ok _ _ _ h0]
  refine ⟨stems, hst, z3, fun x hx => ⟨?_, ?_⟩, ?_⟩
  · refine hag _ ?_
    have e : x.1 ++ ".json".toList = fileName x.1 "json".toList := by unfold fileName; simp
    have hj := fileName_no_slash (z1 x hx).no_slash (e := "json".toList) (by decide)
    rw [e, path hj]
    rintro ⟨g, e2, hg⟩
    rw [← (List.cons.inj (List.append_cancel_left (under_inj e2))).2] at hg
    exact fileName_no_dash (z1 x hx).no_dash (by decide) hg
  · intro file object m hd w hw
    obtain ⟨-, ms, hms, e⟩ := derivedTask_ok E A T fuel (k2 x hx)
    have hdm := (derived_iff A T fuel (htrim x hx) hms ⟨file, object, m.wrapped x.2⟩).2 ⟨m, hd, rfl⟩
    have hw' : w ∈ meshFiles E fmt (DerivedMesh.mk file object (m.wrapped x.2)).stem
      (DerivedMesh.mk file object (m.wrapped x.2)).name (DerivedMesh.mk file object (m.wrapped x.2)).mesh := hw
    obtain ⟨d1, d2⟩ := derived_file E A T fuel (z1 x hx) hms hdm hw'
    rw [hr]
    refine get_applyWrites_only _ _ _ _ ?_ ?_
    · simp only [writesOf_append, List.mem_append]
      refine .inl (.inr ?_)
      rw [writesOf_itemTasks E _ root hst]
      refine List.mem_cons_of_mem _ (List.mem_flatMap.2 ⟨x, hx, ?_⟩)
      rw [e]
      exact List.mem_map.2 ⟨w, List.mem_append_right _ (List.mem_flatMap.2 ⟨_, hdm, hw'⟩), rfl⟩
    · intro v hv hvp
      obtain ⟨y, hy, ns, hns, d', hd', u, hu, rfl⟩ := hwr v hv (by rw [hvp, path d2]; exact ⟨w.1, rfl, d1⟩)
      obtain ⟨-, u2⟩ := derived_file E A T fuel (z1 y hy) hns hd' hu
      dsimp only at hvp
      rw [path d2, path u2] at hvp
      have hvp := (List.cons.inj (List.append_cancel_left (under_inj hvp))).2
      have := derived_owner E A T fuel (z1 y hy) (z1 x hx) (hinj y hy x hx) hns hms hd' hdm hu hw' hvp
      rw [this]
  · intro p hp
    have hpd : DerivedPath root p := Classical.byContradiction fun h => hp (hag p h)
    have hm : p ∈ (writesOf (a ++ writeItemTasks E (derivedTask E A T fuel fmt) root t.gameitems ++ b)).map (·.1) := by
      refine Classical.byContradiction fun hnm => hp ?_
      rw [hr, get_applyWrites_not _ _ _ hnm, runSteps_ok _ _ _ h0, get_applyWrites_not]
      intro hm
      obtain ⟨w, hw, rfl⟩ := List.mem_map.1 hm
      exact base_not_derived E fmt root t hi hs hf w hw hpd
    obtain ⟨w, hw, rfl⟩ := List.mem_map.1 hm
    obtain ⟨x, hx, ms, hms, d, hd, v, hv, rfl⟩ := hwr w hw hpd
    obtain ⟨m, h2, h3⟩ := (derived_iff A T fuel (htrim x hx) hms d).1 hd
    rw [h3] at hv
    exact ⟨x, hx, _, _, m, h2, v, hv, rfl⟩

/-- **C89.** For every item there is beside its JSON file a mesh file for each mesh that is derived from it
(`Derives`): these files are all there is in addition. No item is called `json`. -/
theorem C89_files (fmt : MeshFormat) (root : Str) (t : VPX) (fs fs0 fs1 : Files)
    (hi : ∀ f ∈ imageFiles E t.images, '/' ∉ f) (hs : ∀ f ∈ soundFiles E t.sounds, '/' ∉ f)
    (hf : ∀ f ∈ fontFiles E t.fonts, '/' ∉ f) (hn : ∀ g ∈ t.gameitems, g.name ≠ "json".toList)
    (h0 : expand E fmt root t fs = (.ok (), fs0)) (h1 : expandDerived E A T fuel fmt root t fs = (.ok (), fs1)) :
    ∃ stems : List Str, stems.length = t.gameitems.length ∧ stems.Nodup ∧
      (∀ x ∈ stems.zip t.gameitems,
        fs1.get (joinPath (joinPath root "gameitems".toList) (x.1 ++ ".json".toList))
          = fs0.get (joinPath (joinPath root "gameitems".toList) (x.1 ++ ".json".toList)) ∧
        ∀ file object m, Derives A T fuel x.1 x.2 file object m →
          ∀ w ∈ meshFiles E fmt file object (m.wrapped x.2),
            fs1.get (joinPath (joinPath root "gameitems".toList) w.1) = some w.2) ∧
      ∀ p, fs1.get p ≠ fs0.get p → ∃ x ∈ stems.zip t.gameitems, ∃ file object m, Derives A T fuel x.1 x.2 file object m ∧
        ∃ w ∈ meshFiles E fmt file object (m.wrapped x.2), p = joinPath (joinPath root "gameitems".toList) w.1 := by
  obtain ⟨stems, hst, h2, h3⟩ := C89_files_named E A T fuel fmt root t fs fs0 fs1 hi hs hf hn h0 h1
  exact ⟨stems, h2, (itemStems_nodup hst).1, h3⟩

end
end Vpin
