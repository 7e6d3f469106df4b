import Verif.Lemmas.Expanded
/-
The table is read from its files.
-/
namespace Vpin
variable (E : ExpandEnv)

theorem readVersionFile_back {root : Str} {fs : Files} {v : Version}
    (h : fs.get (under root "version.txt".toList) = some (encodeUtf8 v.toText)) : readVersionFile root fs = .ok v := by
  unfold readVersionFile
  rw [joinPath_under (by decide), h, orIo_bind, decode_encode_utf8, orIo_bind, C49_text_roundtrip]

theorem readInfo_back {root : Str} {fs : Files} {info : TableInfo} {tags : CustomInfoTags}
    (hp : (info.properties.map (·.1)).Nodup)
    (h1 : fs.get (under root "info.json".toList) = some (writeJson E.J (jInfo none) (info, tags)))
    (h2 : fs.get (under root "screenshot.png".toList) = info.screenshot) :
    readInfo E root fs = .ok (info, tags) := by
  unfold readInfo
  rw [joinPath_under (f := "screenshot.png".toList) (by decide), h2]
  have hr : readJson E.J (jInfo info.screenshot) (writeJson E.J (jInfo none) (info, tags)) = .ok (info, tags) := by
    unfold readJson writeJson
    rw [E.J.parse_print_self (info_valid (info, tags) hp)]
    exact info_back info.screenshot (info, tags) hp
  rw [Res.thenOk (readOptional_some E (by decide) h1 rfl hr)]
  rfl

theorem readItems_back (S : StdText E.T) {fmt : MeshFormat} {root : Str} {fs : Files} {stems : List Str}
    {items : List GameItemEnum} (hlen : stems.length = items.length)
    (h : ItemsDir E fmt (joinPath root "gameitems".toList) fs (stems.zip items))
    (hj : fs.get (under root "gameitems.json".toList) = some (writeJson E.J (jVec jGameItemInfo)
      ((stems.zip items).map fun x => x.2.info (itemFile x.1)))) :
    ∃ items', readItems E root fs = .ok items' ∧ SameList (SameItem E) items items' := by
  unfold readItems
  rw [Res.thenOk (readOptional_some E (by decide) hj rfl
    (readJson_writeJson E.J (jVec_ok jGameItemInfo_ok) fun _ _ => trivial)), Option.getD_some]
  have hinj : ∀ a b, joinPath (joinPath root "gameitems".toList) a = joinPath (joinPath root "gameitems".toList) b →
      '/' ∉ a → '/' ∉ b → a = b := by
    intro a b e ha hb
    rw [joinPath_under (plain_head ha), joinPath_under (plain_head hb)] at e
    exact under_inj e
  obtain ⟨l', h1, h2, h3⟩ := mapM_rel (readItem E (joinPath root "gameitems".toList) fs)
    (fun x : Str × GameItemEnum => x.2.info (itemFile x.1)) (fun x g' => SameItem E x.2 g') (stems.zip items)
    fun x hx => readItem_back S h hinj x hx
  refine ⟨l', h1, ?_, ?_⟩
  · rw [← h2, List.length_zip, hlen, Nat.min_self]
  · intro i a b ha hb
    have hi : i < stems.length := by
      rw [hlen]
      exact (List.getElem?_eq_some_iff.1 ha).1
    refine h3 i (stems[i], a) b ?_ hb
    rw [List.getElem?_zip_eq_some]
    exact ⟨List.getElem?_eq_getElem hi, ha⟩

theorem readGameDataFiles_back {root : Str} {fs : Files} {g : GameData} {d : Bytes} (hok : g.JsonOk E.J.keeps)
    (h1 : fs.get (under root "gamedata.json".toList) = some (writeJson E.J jGameData g))
    (h2 : fs.get (under root "script.vbs".toList) = some d) :
    readGameDataFiles E root fs = .ok { g.jsonPart with code := StringWithEncoding.ofBytes d } := by
  unfold readGameDataFiles
  have hr : readJson E.J jGameData (writeJson E.J jGameData g) = .ok g.jsonPart := by
    unfold readJson writeJson
    rw [E.J.parse_print_self (GameData.json_valid hok)]
    exact GameData.json_back hok
  rw [joinPath_under (by decide), joinPath_under (by decide), Res.thenOk (readRequired_ok E h1 hr), h2, orIo_bind]
  rfl

/-- the materials are read into game data without any -/
theorem readMaterials_back {root : Str} {fs : Files} {g b : GameData} (hg : g.Expandable E)
    (h0 : b.materials = none)
    (h1 : fs.get (under root "materials.json".toList) = g.materials.map (writeJson E.J (jVec jMaterial)))
    (h2 : fs.get (under root "materials-old.json".toList) = g.oldFile E)
    (h3 : fs.get (under root "materials-physics-old.json".toList) = g.physicsFile E) :
    readMaterials E root fs b = .ok { b with
      materials_old := g.materials_old, materials_physics_old := g.materials_physics_old,
      materials_size := g.materials_size, materials := g.materials } := by
  unfold readMaterials
  cases hm : g.materials with
  | some ms =>
    rw [hm] at h1
    obtain ⟨m1, m2, m3, m4⟩ := hg.modern ms hm
    rw [Res.thenOk (readOptional_some E (by decide) h1 rfl (readJson_writeJson E.J (jVec_ok jMaterial_ok) m1))]
    dsimp only
    rw [Res.thenOk m2, m3, m4]
    rfl
  | none =>
    rw [hm] at h1
    obtain ⟨m1, m2, m3⟩ := hg.old hm
    unfold GameData.oldFile at h2
    unfold GameData.physicsFile at h3
    rw [hm] at h2 h3
    rw [Res.thenOk (readOptional_none E (by decide) h1)]
    dsimp only
    rw [Res.thenOk (readOptional_some E (by decide) h2 rfl (readJson_writeJson E.J (jVec_ok jSaveMaterial_ok) m1))]
    dsimp only
    have hp : readOptional E root fs "materials-physics-old.json" (jVec jSavePhysicsMaterial)
        = .ok g.materials_physics_old := by
      cases hq : g.materials_physics_old with
      | none =>
        rw [hq] at h3
        exact readOptional_none E (by decide) h3
      | some ps =>
        rw [hq] at h3
        exact readOptional_some E (by decide) h3 rfl
          (readJson_writeJson E.J (jVec_ok jSavePhysicsMaterial_ok) (m2 ps hq))
    rw [Res.thenOk hp, m3]
    have e : ({ b with
        materials_old := g.materials_old, materials_physics_old := g.materials_physics_old,
        materials_size := UInt32.ofNat g.materials_old.length, materials := none } : GameData)
      = { b with
        materials_old := g.materials_old, materials_physics_old := g.materials_physics_old,
        materials_size := UInt32.ofNat g.materials_old.length, materials := b.materials } := by rw [h0]
    rw [e]
    rfl

theorem readRenderProbes_back {root : Str} {fs : Files} {o : Option (List RenderProbeWithGarbage)}
    (hok : ∀ ps, o = some ps → ∀ p ∈ ps, p.JsonOk E.J.keeps)
    (h : fs.get (under root "renderprobes.json".toList) = o.map (writeJson E.J (jVec jRenderProbe))) :
    readOptional E root fs "renderprobes.json" (jVec jRenderProbe) = .ok o := by
  cases o with
  | none => exact readOptional_none E (by decide) h
  | some ps =>
    exact readOptional_some E (by decide) h rfl (readJson_writeJson E.J (jVec_ok jRenderProbe_ok) (hok ps rfl))

theorem VPX.eq_of {a b : VPX} (h1 : a.custominfotags = b.custominfotags) (h2 : a.info = b.info)
    (h3 : a.version = b.version) (h4 : a.gamedata = b.gamedata) (h5 : a.gameitems = b.gameitems)
    (h6 : a.images = b.images) (h7 : a.sounds = b.sounds) (h8 : a.fonts = b.fonts)
    (h9 : a.collections = b.collections) : a = b := by
  cases a; cases b
  dsimp only at *
  subst h1; subst h2; subst h3; subst h4; subst h5; subst h6; subst h7; subst h8; subst h9
  rfl

/-- **the table is read back** -/
theorem assemble_back (S : StdText E.T) {fmt : MeshFormat} {root : Str} {fs : Files} {t : VPX} {stems : List Str}
    {d : Bytes} (ht : t.Expandable E fmt) (hc : t.gamedata.code = StringWithEncoding.ofBytes d)
    (hlen : stems.length = t.gameitems.length) (hst : Stems E fmt (stems.zip t.gameitems))
    (h : DirHas root fs (tableSegs E fmt t (stems.zip t.gameitems) d)) :
    ∃ t', assemble E root fs = .ok t' ∧ SameTable E t t' := by
  have f1 := h.file (n := "version.txt") (by decide) (o := some (encodeUtf8 t.version.toText)) (by simp [tableSegs])
  have f2 := h.file (n := "screenshot.png") (by decide) (o := t.info.screenshot) (by simp [tableSegs])
  have f3 := h.file (n := "info.json") (by decide)
    (o := some (writeJson E.J (jInfo none) (t.info, t.custominfotags))) (by simp [tableSegs])
  have f4 := h.file (n := "collections.json") (by decide)
    (o := some (writeJson E.J (jVec jCollection) t.collections)) (by simp [tableSegs])
  have f5 := h.file (n := "gameitems.json") (by decide)
    (o := some (writeJson E.J (jVec jGameItemInfo) ((stems.zip t.gameitems).map fun x => x.2.info (itemFile x.1))))
    (by simp [tableSegs])
  have f6 := h.file (n := "images.json") (by decide)
    (o := some (writeJson E.J (jVec jImage) ((namedImages E t.images).map fun x => x.1.entry E x.2)))
    (by simp [tableSegs])
  have f7 := h.file (n := "sounds.json") (by decide)
    (o := some (writeJson E.J (jVec jSound)
     ((namedSounds E t.sounds).map fun x => { SoundDataJson.ofSound x.1 with name_dedup := x.2 })))
    (by simp [tableSegs])
  have f8 := h.file (n := "fonts.json") (by decide)
    (o := some (writeJson E.J (jVec jFontData) t.fonts)) (by simp [tableSegs])
  have f9 := h.file (n := "gamedata.json") (by decide)
    (o := some (writeJson E.J jGameData t.gamedata)) (by simp [tableSegs])
  have f10 := h.file (n := "script.vbs") (by decide) (o := some d) (by simp [tableSegs])
  have f11 := h.file (n := "materials.json") (by decide)
    (o := t.gamedata.materials.map (writeJson E.J (jVec jMaterial))) (by simp [tableSegs])
  have f12 := h.file (n := "materials-old.json") (by decide) (o := t.gamedata.oldFile E) (by simp [tableSegs])
  have f13 := h.file (n := "materials-physics-old.json") (by decide) (o := t.gamedata.physicsFile E)
    (by simp [tableSegs])
  have f14 := h.file (n := "renderprobes.json") (by decide)
    (o := t.gamedata.render_probes.map (writeJson E.J (jVec jRenderProbe))) (by simp [tableSegs])
  have d1 : ItemsDir E fmt (joinPath root "gameitems".toList) fs (stems.zip t.gameitems) := by
    have hs : dirSeg "gameitems" (itemSeg E fmt (stems.zip t.gameitems))
        ∈ tableSegs E fmt t (stems.zip t.gameitems) d := by simp [tableSegs]
    refine ⟨hst, ?_, ?_⟩
    · intro w hw
      rw [joinPath_two (d := "gameitems".toList) (by decide) (itemsFiles_plain E hst w hw)]
      exact h.there _ hs _ (List.mem_map.2 ⟨w, hw, rfl⟩)
    · intro f hf hfd hn
      rw [joinPath_two (d := "gameitems".toList) (by decide) hf]
      refine h.absent hs (fun g e => (List.cons.inj (List.append_cancel_left e)).2 ▸ hfd)
        (headPart_sub _ _ (by decide)) ?_
      intro hm
      have hm : "gameitems".toList ++ '/' :: f ∈ (itemSeg E fmt (stems.zip t.gameitems)).map (·.1) := hm
      unfold itemSeg at hm
      rw [List.map_map] at hm
      obtain ⟨w, hw, e⟩ := List.mem_map.1 hm
      have e : "gameitems".toList ++ '/' :: w.1 = "gameitems".toList ++ '/' :: f := e
      have e2 := (List.cons.inj (List.append_cancel_left e)).2
      exact hn (List.mem_map.2 ⟨w, hw, e2⟩)
  have d2 : ∀ w ∈ guardedFiles (imageBlocks E t.images), fs.get (under root w.1) = some w.2 := fun w hw =>
    h.there (dirSeg "images" (guardedFiles (imageBlocks E t.images))) (by simp [tableSegs]) w hw
  have d3 : ∀ w ∈ guardedFiles (soundBlocks E t.sounds), fs.get (under root w.1) = some w.2 := fun w hw =>
    h.there (dirSeg "sounds" (guardedFiles (soundBlocks E t.sounds))) (by simp [tableSegs]) w hw
  have d4 : ∀ w ∈ fontSeg E t.fonts, fs.get (under root w.1) = some w.2 := fun w hw =>
    h.there (dirSeg "fonts" (fontSeg E t.fonts)) (by simp [tableSegs]) w hw
  have r1 := readVersionFile_back f1
  have r2 := readInfo_back E ht.properties f3 f2
  have r3 := readOptional_some E (by decide) f4 rfl
    (readJson_writeJson E.J (jVec_ok jCollection_ok) (a := t.collections) fun _ _ => trivial)
  obtain ⟨items', r4, s4⟩ := readItems_back E S hlen d1 f5
  obtain ⟨images', r5, s5⟩ := readImages_back E ht.images ht.imageNames f6 d2
  have r6 := readSounds_back E ht.sounds ht.soundNames f7 d3
  have r7 := readFonts_back E ht.fontNames f8 d4
  have r8 := readGameDataFiles_back E ht.gamedata.json f9 f10
  have r10 := readRenderProbes_back E ht.gamedata.probes f14
  have hg : ({ t.gamedata.jsonPart with
      code := StringWithEncoding.ofBytes d
      collections_size := UInt32.ofNat t.collections.length
      gameitems_size := UInt32.ofNat items'.length
      images_size := UInt32.ofNat images'.length
      sounds_size := UInt32.ofNat t.sounds.length
      fonts_size := UInt32.ofNat t.fonts.length
      materials_old := t.gamedata.materials_old
      materials_physics_old := t.gamedata.materials_physics_old
      materials_size := t.gamedata.materials_size
      materials := t.gamedata.materials
      render_probes := t.gamedata.render_probes } : GameData) = t.gamedata := by
    obtain ⟨c1, c2, c3, c4, c5⟩ := ht.counts
    rw [← hc, ← s4.1, ← s5.1, ← c1, ← c2, ← c3, ← c4, ← c5]
    rfl
  refine ⟨{ t with gameitems := items', images := images' }, ?_, ⟨rfl, rfl, rfl, rfl, s4, s5, rfl, rfl, rfl⟩⟩
  unfold assemble
  rw [Res.thenOk r1, Res.thenOk r2]
  dsimp only
  rw [Res.thenOk r3, Option.getD_some, Res.thenOk r4, Res.thenOk r5, Res.thenOk r6, Res.thenOk r7, Res.thenOk r8,
    Res.thenOk (readMaterials_back E ht.gamedata rfl f11 f12 f13), Res.thenOk r10]
  refine congrArg Except.ok (VPX.eq_of rfl rfl rfl ?_ rfl rfl rfl rfl rfl)
  exact hg

end Vpin
