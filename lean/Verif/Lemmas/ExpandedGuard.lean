import Verif.Props.ExpandedImages
import Verif.Props.Sound
/-
The steps writing images and sounds, and what is read from the files.
-/
namespace Vpin

/-- the step behind the check that the file does not exist -/
def tailStep (p : Str) : Option (Res Bytes) → List FsStep
  | none => []
  | some (.ok bs) => [.write p bs]
  | some (.error e) => [.fail e]

def guardedSteps (root : Str) (l : List (Str × Option (Res Bytes))) : List FsStep :=
  l.flatMap fun x => .absent (under root x.1) :: tailStep (under root x.1) x.2

/-- the files of these steps -/
def guardedFiles : List (Str × Option (Res Bytes)) → List (Str × Bytes)
  | [] => []
  | (p, some (.ok bs)) :: l => (p, bs) :: guardedFiles l
  | _ :: l => guardedFiles l

theorem mem_guardedFiles : ∀ {l : List (Str × Option (Res Bytes))} {p : Str} {bs : Bytes},
    (p, some (.ok bs)) ∈ l → (p, bs) ∈ guardedFiles l
  | (q, o) :: l, p, bs, h => by
    rcases List.mem_cons.1 h with h | h
    · cases h
      exact List.mem_cons_self
    · have := mem_guardedFiles h
      match o with
      | some (.ok b) => exact List.mem_cons_of_mem _ this
      | some (.error e) => exact this
      | none => exact this

theorem guardedFiles_sub : ∀ {l : List (Str × Option (Res Bytes))} {w : Str × Bytes}, w ∈ guardedFiles l →
    w.1 ∈ l.map (·.1)
  | (q, some (.ok b)) :: l, w, h => by
    rcases List.mem_cons.1 h with rfl | h
    · exact List.mem_cons_self
    · exact List.mem_cons_of_mem _ (guardedFiles_sub h)
  | (q, some (.error e)) :: l, w, h => List.mem_cons_of_mem _ (guardedFiles_sub (l := l) h)
  | (q, none) :: l, w, h => List.mem_cons_of_mem _ (guardedFiles_sub (l := l) h)

theorem writesOf_absent (p : Str) (l : List FsStep) : writesOf (.absent p :: l) = writesOf l := rfl

theorem writesOf_guarded (root : Str) : ∀ l : List (Str × Option (Res Bytes)),
    writesOf (guardedSteps root l) = (guardedFiles l).map fun w => (under root w.1, w.2)
  | [] => rfl
  | (p, o) :: l => by
    have ih := writesOf_guarded root l
    unfold guardedSteps at ih ⊢
    rw [List.flatMap_cons, List.cons_append, writesOf_absent, writesOf_append, ih]
    match o with
    | some (.ok b) => rfl
    | some (.error e) => rfl
    | none => rfl

/-- after success no two of the files have the same path -/
theorem guardedFiles_nodup {root : Str} {l : List (Str × Option (Res Bytes))} {fs fs' : Files}
    (h : runSteps (guardedSteps root l) fs = (.ok (), fs')) : ((guardedFiles l).map (·.1)).Nodup := by
  have := (guarded_nodup (fun x : Str × Option (Res Bytes) => under root x.1) (fun x => tailStep (under root x.1) x.2)
    (fun x => by
      match x with
      | (_, some (.ok b)) => exact .inr (.inl ⟨b, rfl⟩)
      | (_, some (.error e)) => exact .inr (.inr ⟨e, rfl⟩)
      | (_, none) => exact .inl rfl) l fs fs' h).1
  have e : writesOf (l.flatMap fun x => .absent (under root x.1) :: tailStep (under root x.1) x.2)
      = (guardedFiles l).map fun w => (under root w.1, w.2) := writesOf_guarded root l
  rw [e, List.map_map] at this
  have e2 : ((guardedFiles l).map ((fun x => x.1) ∘ fun w => (under root w.1, w.2)))
      = ((guardedFiles l).map (·.1)).map (under root) := by rw [List.map_map]; rfl
  rw [e2] at this
  unfold List.Nodup at this
  rw [List.pairwise_map] at this
  exact this.imp fun hab e => hab (by rw [e])

/-! ### Lists -/

theorem mapM_rel {α β γ : Type} (f : β → Res γ) (e : α → β) (R : α → γ → Prop) : ∀ l : List α,
    (∀ a ∈ l, ∃ c, f (e a) = .ok c ∧ R a c) → ∃ l', (l.map e).mapM f = .ok l' ∧ l.length = l'.length ∧
      ∀ (i : Nat) a c, l[i]? = some a → l'[i]? = some c → R a c
  | [], _ => ⟨[], rfl, rfl, by simp⟩
  | a :: l, h => by
    obtain ⟨c, h1, h2⟩ := h a List.mem_cons_self
    obtain ⟨l', h3, h4, h5⟩ := mapM_rel f e R l fun b hb => h b (List.mem_cons_of_mem _ hb)
    refine ⟨c :: l', ?_, by simp [h4], ?_⟩
    · rw [List.map_cons, List.mapM_cons, h1]
      show ((l.map e).mapM f >>= fun x => pure (c :: x)) = _
      rw [h3]; rfl
    · intro i a' c' ha hc
      cases i with
      | zero =>
        simp only [List.getElem?_cons_zero, Option.some.injEq] at ha hc
        exact ha ▸ hc ▸ h2
      | succ i =>
        simp only [List.getElem?_cons_succ] at ha hc
        exact h5 i a' c' ha hc

theorem mapM_eq {α β γ : Type} (f : β → Res γ) (e : α → β) (g : α → γ) (l : List α)
    (h : ∀ a ∈ l, f (e a) = .ok (g a)) : (l.map e).mapM f = .ok (l.map g) := by
  induction l with
  | nil => rfl
  | cons a l ih =>
    rw [List.map_cons, List.mapM_cons, h a List.mem_cons_self, List.map_cons]
    show ((l.map e).mapM f >>= fun x => pure (g a :: x)) = _
    rw [ih fun b hb => h b (List.mem_cons_of_mem _ hb)]; rfl

variable (E : ExpandEnv)

theorem dedupNames_length : ∀ (names used : List Str) (k : Nat), (dedupNames E used k names).length = names.length
  | [], _, _ => rfl
  | n :: names, used, k => by
    unfold dedupNames
    dsimp only
    split <;> simp [dedupNames_length]

/-- a name is kept only if it is one for a file -/
theorem dedupNames_none : ∀ (names used : List Str) (k : Nat) (n : Str) (d : Option Str),
    (n, d) ∈ names.zip (dedupNames E used k names) → d = none → E.sanitize n = n
  | [], _, _, _, _, h, _ => by simp at h
  | m :: names, used, k, n, d, h, hd => by
    unfold dedupNames at h
    dsimp only at h
    split at h
    · rw [List.zip_cons_cons] at h
      rcases List.mem_cons.1 h with h | h
      · cases h; cases hd
      · exact dedupNames_none names _ _ n d h hd
    · rw [List.zip_cons_cons] at h
      rcases List.mem_cons.1 h with h | h
      · cases h
        split at hd
        · next e => exact e
        · cases hd
      · exact dedupNames_none names _ _ n d h hd

/-! ### Reading JSON files -/

theorem readOptional_some {α : Type} {root : Str} {fs : Files} {file : String} {c c' : Codec α} {a b : α} {bs : Bytes}
    (hf : file.toList.head? ≠ some '/') (hg : fs.get (under root file.toList) = some bs) (hb : bs = writeJson E.J c' a)
    (hr : readJson E.J c (writeJson E.J c' a) = .ok b) : readOptional E root fs file c = .ok (some b) := by
  unfold readOptional
  rw [joinPath_under hf, hg, hb]
  dsimp only
  rw [hr]

theorem readOptional_none {α : Type} {root : Str} {fs : Files} {file : String} {c : Codec α}
    (hf : file.toList.head? ≠ some '/') (hg : fs.get (under root file.toList) = none) :
    readOptional E root fs file c = .ok none := by
  unfold readOptional
  rw [joinPath_under hf, hg]

theorem readRequired_ok {α : Type} {path : Str} {fs : Files} {c c' : Codec α} {a b : α}
    (hg : fs.get path = some (writeJson E.J c' a)) (hr : readJson E.J c (writeJson E.J c' a) = .ok b) :
    readRequired E path fs c = .ok b := by
  unfold readRequired
  rw [hg, orIo_bind, hr]

/-! ### Images -/

/-- the data of an image file -/
def ImageData.content (s : ImageData) : Option (Res Bytes) :=
  if s.isLink then none
  else
    match s.jpeg, s.bits with
    | some jpeg, _ => some (.ok jpeg.data)
    | none, some bits =>
      if eqIgnoreAsciiCase s.ext "bmp".toList then some (bmpFile E bits s.width s.height) else some (.error .panic)
    | none, none => some (.error .io)

theorem dataSteps_eq (s : ImageData) (path : Str) : s.dataSteps E path = tailStep path (s.content E) := by
  unfold ImageData.dataSteps ImageData.content
  split
  · rfl
  · cases s.jpeg with
    | some j => rfl
    | none =>
      cases s.bits with
      | none => rfl
      | some bits =>
        dsimp only
        split
        · cases bmpFile E bits s.width s.height <;> rfl
        · rfl

/-- images with the names of their files -/
def namedImages (images : List ImageData) : List (ImageData × Option Str) :=
  images.zip (dedupNames E [] 0 (images.map (·.name)))

def imageBlocks (images : List ImageData) : List (Str × Option (Res Bytes)) :=
  (namedImages E images).map fun x => ("images".toList ++ '/' :: x.1.file x.2, x.1.content E)

theorem plain_head {f : Str} (h : '/' ∉ f) : f.head? ≠ some '/' := by
  intro e
  cases f with
  | nil => cases e
  | cons c f => simp only [List.head?_cons, Option.some.injEq] at e; exact h (e ▸ List.mem_cons_self)

theorem joinPath_two {root f : Str} {d : Str} (hd : d.head? ≠ some '/') (h : '/' ∉ f) :
    joinPath (joinPath root d) f = under root (d ++ '/' :: f) := by
  rw [joinPath_under hd, joinPath_under (plain_head h), under_under]

theorem flatMap_congr_mem {α β : Type} {f g : α → List β} : ∀ {l : List α}, (∀ x ∈ l, f x = g x) →
    l.flatMap f = l.flatMap g
  | [], _ => rfl
  | a :: l, h => by
    rw [List.flatMap_cons, List.flatMap_cons, h a List.mem_cons_self,
      flatMap_congr_mem fun x hx => h x (List.mem_cons_of_mem _ hx)]

theorem writeImages_eq (root : Str) (images : List ImageData) (h : ∀ f ∈ imageFiles E images, '/' ∉ f) :
    writeImages E root images = jsonStep E root "images.json" (jVec jImage)
        ((namedImages E images).map fun x => x.1.entry E x.2) :: guardedSteps root (imageBlocks E images) := by
  unfold writeImages guardedSteps imageBlocks
  dsimp only
  rw [List.flatMap_map]
  congr 1
  refine flatMap_congr_mem fun x hx => ?_
  obtain ⟨s, d⟩ := x
  dsimp only
  rw [joinPath_two (d := "images".toList) (by decide) (h _ (List.mem_map.2 ⟨(s, d), hx, rfl⟩)), dataSteps_eq]

theorem readImages_back {root : Str} {fs : Files} {images : List ImageData} (hok : ∀ s ∈ images, s.Expandable E)
    (hn : ∀ f ∈ imageFiles E images, '/' ∉ f)
    (hj : fs.get (under root "images.json".toList) = some (writeJson E.J (jVec jImage)
        ((namedImages E images).map fun x => x.1.entry E x.2)))
    (hf : ∀ w ∈ guardedFiles (imageBlocks E images), fs.get (under root w.1) = some w.2) :
    ∃ images', readImages E root fs = .ok images' ∧ SameList (SameImage E) images images' := by
  have hlen : (dedupNames E [] 0 (images.map (·.name))).length = images.length := by
    rw [dedupNames_length, List.length_map]
  have hmem : ∀ x ∈ namedImages E images, x.1 ∈ images := fun x hx => (List.of_mem_zip (a := x.1) (b := x.2) hx).1
  have each : ∀ x ∈ namedImages E images, readJson E.J jImage (writeJson E.J jImage (x.1.entry E x.2))
        = .ok (x.1.entry E x.2) ∧ ∃ s', readImage E (joinPath root "images".toList) fs (x.1.entry E x.2) = .ok s' ∧
      SameImage E x.1 s' ∧ (x.1.bits = none → s' = x.1) := by
    intro x hx
    obtain ⟨s, d⟩ := x
    refine C50_image_restored E s d (hok s (hmem _ hx)) _ fs ?_
    intro bs hb
    have hp := joinPath_two (root := root) (d := "images".toList) (by decide)
      (hn _ (List.mem_map.2 ⟨(s, d), hx, rfl⟩))
    dsimp only at hp
    rw [hp] at hb ⊢
    rw [dataSteps_eq] at hb
    refine hf (_, bs) (mem_guardedFiles (List.mem_map.2 ⟨(s, d), hx, ?_⟩))
    dsimp only
    match h : s.content E, hb with
    | some (.ok b), hb => cases hb; rfl
    | some (.error e), hb => cases hb
    | none, hb => cases hb
  have hjson : readJson E.J (jVec jImage) (writeJson E.J (jVec jImage)
      ((namedImages E images).map fun x => x.1.entry E x.2))
      = .ok ((namedImages E images).map fun x => x.1.entry E x.2) := by
    refine readJson_writeJson E.J (jVec_ok jImage_ok) ?_
    intro a ha
    obtain ⟨x, hx, rfl⟩ := List.mem_map.1 ha
    rw [(entry_name E x.1 x.2).2.2.2.2]
    intro v hv
    split at hv
    · cases hv
    · cases hv; exact (hok x.1 (hmem x hx)).json.alpha
  obtain ⟨l', h1, h2, h3⟩ := mapM_rel (readImage E (joinPath root "images".toList) fs) (fun x => x.1.entry E x.2)
    (fun x s' => SameImage E x.1 s') (namedImages E images) (fun x hx => by
      obtain ⟨-, s', h1, h2, -⟩ := each x hx
      exact ⟨s', h1, h2⟩)
  refine ⟨l', ?_, ?_, ?_⟩
  · unfold readImages
    rw [Res.thenOk (readOptional_some E (by decide) hj rfl hjson)]
    exact h1
  · rw [← h2]
    unfold namedImages
    rw [List.length_zip, hlen, Nat.min_self]
  · intro i a b ha hb
    have hi : i < images.length := (List.getElem?_eq_some_iff.1 ha).1
    have : (namedImages E images)[i]? = some (a, (dedupNames E [] 0 (images.map (·.name)))[i]'(by omega)) := by
      unfold namedImages
      rw [List.getElem?_zip_eq_some]
      exact ⟨ha, by simp⟩
    exact h3 i _ b this hb

/-! ### Sounds -/

def namedSounds (sounds : List SoundData) : List (SoundData × Option Str) :=
  sounds.zip (dedupNames E [] 0 (sounds.map (·.name)))

def soundBlocks (sounds : List SoundData) : List (Str × Option (Res Bytes)) :=
  (namedSounds E sounds).map fun x => ("sounds".toList ++ '/' :: x.1.file E x.2, some (.ok (x.1.export E.ext)))

theorem writeSounds_eq (root : Str) (sounds : List SoundData) (h : ∀ f ∈ soundFiles E sounds, '/' ∉ f) :
    writeSounds E root sounds = jsonStep E root "sounds.json" (jVec jSound)
        ((namedSounds E sounds).map fun x => { SoundDataJson.ofSound x.1 with name_dedup := x.2 }) ::
      guardedSteps root (soundBlocks E sounds) := by
  unfold writeSounds guardedSteps soundBlocks
  dsimp only
  rw [List.flatMap_map]
  congr 1
  refine flatMap_congr_mem fun x hx => ?_
  obtain ⟨s, d⟩ := x
  dsimp only
  rw [joinPath_two (d := "sounds".toList) (by decide) (h _ (List.mem_map.2 ⟨(s, d), hx, rfl⟩))]
  rfl

theorem zip_map_mem {α β γ : Type} {f : α → β} : ∀ {l : List α} {m : List γ} {a : α} {c : γ}, (a, c) ∈ l.zip m →
    (f a, c) ∈ (l.map f).zip m
  | x :: l, y :: m, a, c, h => by
    rw [List.zip_cons_cons] at h
    rw [List.map_cons, List.zip_cons_cons]
    rcases List.mem_cons.1 h with h | h
    · cases h; exact List.mem_cons_self
    · exact List.mem_cons_of_mem _ (zip_map_mem h)

theorem zip_fst_map {α β : Type} (l : List α) (m : List β) (h : l.length = m.length) : (l.zip m).map (·.1) = l := by
  induction l generalizing m with
  | nil => rfl
  | cons a l ih =>
    cases m with
    | nil => cases h
    | cons b m => rw [List.zip_cons_cons, List.map_cons, ih m (by simpa using h)]

theorem readSounds_back {root : Str} {fs : Files} {sounds : List SoundData} (hok : ∀ s ∈ sounds, s.Expandable E)
    (hn : ∀ f ∈ soundFiles E sounds, '/' ∉ f)
    (hj : fs.get (under root "sounds.json".toList) = some (writeJson E.J (jVec jSound)
        ((namedSounds E sounds).map fun x => { SoundDataJson.ofSound x.1 with name_dedup := x.2 })))
    (hf : ∀ w ∈ guardedFiles (soundBlocks E sounds), fs.get (under root w.1) = some w.2) :
    readSounds E root fs = .ok sounds := by
  have hlen : (dedupNames E [] 0 (sounds.map (·.name))).length = sounds.length := by
    rw [dedupNames_length, List.length_map]
  have each : ∀ x ∈ namedSounds E sounds, readSound E (joinPath root "sounds".toList) fs
      { SoundDataJson.ofSound x.1 with name_dedup := x.2 } = .ok x.1 := by
    intro x hx
    obtain ⟨s, d⟩ := x
    have hp := joinPath_two (root := root) (d := "sounds".toList) (by decide)
      (hn _ (List.mem_map.2 ⟨(s, d), hx, rfl⟩))
    dsimp only at hp
    have hg : fs.get (under root ("sounds".toList ++ '/' :: s.file E d)) = some (s.export E.ext) :=
      hf (_, s.export E.ext) (mem_guardedFiles (List.mem_map.2 ⟨(s, d), hx, rfl⟩))
    have hname : fileName (d.getD s.name) (soundExt E s.path) = s.file E d := by
      unfold SoundData.file
      cases d with
      | some x => rfl
      | none =>
        show fileName s.name _ = fileName (E.sanitize s.name) _
        rw [dedupNames_none E _ _ _ s.name none (zip_map_mem (f := (·.name)) hx) rfl]
    unfold readSound
    show (orIo (fs.get (joinPath (joinPath root "sounds".toList) (fileName (d.getD s.name) (soundExt E s.path)))) >>= _)
      = _
    rw [hname, hp, hg, orIo_bind]
    exact C18_sound_restored E.ext s (hok s (List.of_mem_zip (a := s) (b := d) hx).1)
  unfold readSounds
  have hjson : readJson E.J (jVec jSound) (writeJson E.J (jVec jSound)
        ((namedSounds E sounds).map fun x => { SoundDataJson.ofSound x.1 with name_dedup := x.2 })) = .ok
        ((namedSounds E sounds).map fun x => { SoundDataJson.ofSound x.1 with name_dedup := x.2 }) :=
    readJson_writeJson E.J (jVec_ok jSound_ok) fun _ _ => trivial
  rw [Res.thenOk (readOptional_some E (by decide) hj rfl hjson)]
  show List.mapM _ _ = _
  rw [Option.getD_some, mapM_eq _ _ (·.1) _ each]
  unfold namedSounds
  rw [zip_fst_map _ _ hlen.symm]

/-! ### Fonts -/

def fontSeg (fonts : List FontData) : List (Str × Bytes) :=
  fonts.map fun s => ("fonts".toList ++ '/' :: s.file E, s.data)

theorem writesOf_writes {α : Type} (p : α → Str) (b : α → Bytes) : ∀ l : List α,
    writesOf (l.map fun x => .write (p x) (b x)) = l.map fun x => (p x, b x)
  | [] => rfl
  | a :: l => by rw [List.map_cons, writesOf, writesOf_writes p b l, List.map_cons]

theorem writesOf_fonts (root : Str) (fonts : List FontData) (h : ∀ f ∈ fontFiles E fonts, '/' ∉ f) :
    writesOf (fonts.map fun s => .write (joinPath (joinPath root "fonts".toList) (s.file E)) s.data)
      = (fontSeg E fonts).map fun w => (under root w.1, w.2) := by
  rw [writesOf_writes]
  unfold fontSeg
  rw [List.map_map]
  refine List.map_congr_left fun s hs => ?_
  rw [joinPath_two (d := "fonts".toList) (by decide) (h _ (List.mem_map.2 ⟨s, hs, rfl⟩))]
  rfl

theorem jFonts_back (fonts : List FontData) : readJson E.J (jVec jFontData) (writeJson E.J (jVec jFontData) fonts)
    = .ok (fonts.map fun s => { s with data := [] }) := by
  unfold readJson writeJson
  rw [E.J.parse_print_self (j := (jVec jFontData).toJ fonts) (.arr _ (by
    intro j hj
    obtain ⟨a, -, rfl⟩ := List.mem_map.1 hj
    exact jFontData_valid a))]
  exact mapM_eq jFontData.ofJ jFontData.toJ _ fonts fun a _ => jFontData_back a

theorem readFonts_back {root : Str} {fs : Files} {fonts : List FontData} (hn : ∀ f ∈ fontFiles E fonts, '/' ∉ f)
    (hj : fs.get (under root "fonts.json".toList) = some (writeJson E.J (jVec jFontData) fonts))
    (hf : ∀ w ∈ fontSeg E fonts, fs.get (under root w.1) = some w.2) : readFonts E root fs = .ok fonts := by
  unfold readFonts
  rw [Res.thenOk (readOptional_some E (by decide) hj rfl (jFonts_back E fonts))]
  show List.mapM _ _ = _
  rw [Option.getD_some, mapM_eq _ _ id fonts, List.map_id]
  intro s hs
  unfold readFont
  show (orIo (fs.get (joinPath (joinPath root "fonts".toList) (s.file E))) >>= _) = _
  rw [joinPath_two (d := "fonts".toList) (by decide) (hn _ (List.mem_map.2 ⟨s, hs, rfl⟩)),
    hf _ (List.mem_map.2 ⟨s, hs, rfl⟩), orIo_bind]
  rfl

end Vpin
