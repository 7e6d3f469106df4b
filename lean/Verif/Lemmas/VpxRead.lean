import Verif.Lemmas.VpxMac
/-
Reading a written table.
-/
namespace Vpin
variable {L : CfbLib}

theorem TableBytes.exists_of {E : Env} {s : VPX} (h : s.WF E) :
    ∃ t, TableBytes.Of E s t ∧
      (∀ (k : Nat) (b : Bytes), t.gameitems[k]? = some b → ∃ x, s.gameitems[k]? = some x ∧ GameItemEnum.read b = .ok x) ∧
      (∀ (k : Nat) (b : Bytes), t.images[k]? = some b → ∃ x, s.images[k]? = some x ∧ ImageData.read b = .ok x) ∧
      (∀ (k : Nat) (b : Bytes), t.sounds[k]? = some b → ∃ x, s.sounds[k]? = some x ∧
        SoundData.read E.ext s.version.number b = .ok x) ∧
      (∀ (k : Nat) (b : Bytes), t.fonts[k]? = some b → ∃ x, s.fonts[k]? = some x ∧ FontData.read b = .ok x) ∧
      (∀ (k : Nat) (b : Bytes), t.collections[k]? = some b → ∃ x, s.collections[k]? = some x ∧ Collection.read b = .ok x) := by
  obtain ⟨b1, e1, d1⟩ := Encodes.of (dec := GameItemEnum.read) fun x hx => C09_item_roundtrip x (h.gameitems x hx)
  obtain ⟨b2, e2, d2⟩ := Encodes.of (dec := ImageData.read) fun x hx => C15_image_roundtrip x (h.images x hx)
  obtain ⟨b3, e3, d3⟩ := Encodes.of (dec := SoundData.read E.ext s.version.number) fun x hx =>
    C16_sound_roundtrip E.ext s.version.number x (h.sounds x hx).wf (h.sounds x hx).wave (h.sounds x hx).volume
  obtain ⟨b4, e4, d4⟩ := Encodes.of (dec := FontData.read) fun x hx => C51_font_roundtrip x (h.fonts x hx)
  obtain ⟨b5, e5, d5⟩ := Encodes.of (dec := Collection.read) fun x hx => C14_collection_roundtrip x (h.collections x hx)
  exact ⟨⟨_, s.info.streams, s.version.bytes, _, b1, b2, b3, b4, b5⟩,
    ⟨rfl, rfl, rfl, rfl, e1, e2, e3, e4, e5⟩, d1, d2, d3, d4, d5⟩

theorem TableBytes.tail_parent (t : TableBytes) : ∀ e ∈ t.tail, e.1.dropLast = [gameStg] := by
  intro e he
  unfold TableBytes.tail at he
  have hb : ∀ {name : Str} {l : List Bytes}, e ∈ blockEntries name 0 l → e.1.dropLast = [gameStg] := by
    intro name l h
    obtain ⟨k, b, -, rfl⟩ := blockEntries_inv h
    rfl
  simp only [List.mem_append, List.mem_singleton] at he
  rcases he with (((((rfl | rfl) | he) | he) | he) | he) | he
  · rfl
  · rfl
  all_goals exact hb he

theorem key_stg_ne : L.key [gameStg] ≠ L.key [infoStg] := by
  intro h
  have := kind_of_key h
  rw [kind_stg, kind_infoStg] at this
  exact absurd this (by decide)

theorem infoChildren_append (a b : Cfb) : infoChildren L (a ++ b) = infoChildren L a ++ infoChildren L b := by
  unfold infoChildren; rw [List.filterMap_append]

/-- the file with its checksum -/
def TableBytes.file (t : TableBytes) (mac : Bytes) : Cfb :=
  t.entries ++ [(gamePath "MAC".toList, .stream mac)]

theorem TableBytes.file_st {t : TableBytes} (h : St L t.entries tableKinds) (mac : Bytes) :
    t.entries.createStream L (gamePath "MAC".toList) mac = .ok (t.file mac) ∧
    St L (t.file mac) (gkind "MAC".toList :: tableKinds) :=
  h.stream (by decide) (by decide) (by decide) mac

theorem TableBytes.file_children (t : TableBytes) (mac : Bytes) :
    infoChildren L (t.file mac) = t.info.map fun x => (x.1, .stream x.2) := by
  unfold TableBytes.file
  rw [TableBytes.entries_eq, infoChildren_append, infoChildren_append, infoChildren_append,
    infoChildren_entries, infoChildren_none (c := t.tail), infoChildren_none (c := [_]),
    infoChildren_none (c := [_, _, _])]
  · simp
  · intro e he
    simp only [List.mem_cons, List.not_mem_nil, or_false] at he
    rcases he with rfl | rfl | rfl
    · simp [CfbLib.key]
    · exact key_stg_ne
    · simp [CfbLib.key]
  · intro e he
    rw [List.mem_singleton.1 he]; exact key_stg_ne
  · intro e he
    rw [t.tail_parent e he]; exact key_stg_ne

theorem openStream_of_get {c : Cfb} {p : Path} {b : Bytes} (h : c.get L p = some (.stream b)) :
    c.openStream L p = .ok b := by
  unfold Cfb.openStream; rw [h]

theorem readBlock {α : Type} {E : Env} {name : Str} {dec : Bytes → Res α} {c : Cfb} {xs : List α}
    {bs : List Bytes} {n : Nat} (hn : n = xs.length) (hd : Cfb.Distinct E.toCfbLib c) (hl : bs.length = xs.length)
    (hm : ∀ e ∈ blockEntries name 0 bs, e ∈ c)
    (h : ∀ (k : Nat) (b : Bytes), bs[k]? = some b → ∃ x, xs[k]? = some x ∧ dec b = .ok x) :
    readFrom E name dec 0 n c = .ok xs := by
  rw [hn]
  refine readFrom_ok xs bs 0 hl ?_ h
  intro k b hk
  exact Cfb.get_of_mem hd (hm _ (blockEntries_mem hk)) (by simp [itemPath, gamePath])

theorem VPX.read_file {E : Env} {s : VPX} (h : s.WF E) {t : TableBytes} (ht : TableBytes.Of E s t)
    (d1 : ∀ (k : Nat) (b : Bytes), t.gameitems[k]? = some b → ∃ x, s.gameitems[k]? = some x ∧ GameItemEnum.read b = .ok x)
    (d2 : ∀ (k : Nat) (b : Bytes), t.images[k]? = some b → ∃ x, s.images[k]? = some x ∧ ImageData.read b = .ok x)
    (d3 : ∀ (k : Nat) (b : Bytes), t.sounds[k]? = some b → ∃ x, s.sounds[k]? = some x ∧
        SoundData.read E.ext s.version.number b = .ok x)
    (d4 : ∀ (k : Nat) (b : Bytes), t.fonts[k]? = some b → ∃ x, s.fonts[k]? = some x ∧ FontData.read b = .ok x)
    (d5 : ∀ (k : Nat) (b : Bytes), t.collections[k]? = some b → ∃ x, s.collections[k]? = some x ∧ Collection.read b = .ok x)
    (mac : Bytes) :
    ∃ s', VPX.read E (t.file mac) = .ok s' ∧ s.Same s' := by
  obtain ⟨-, hst, -⟩ := VPX.writeParts_ok h ht
  obtain ⟨-, hst⟩ := TableBytes.file_st hst mac
  have hd := hst.distinct
  have mem : ∀ {p : Path} {e : Entry}, (p, e) ∈ t.entries → p ≠ [] → Cfb.get E.toCfbLib (t.file mac) p = some e :=
    fun hm hp => Cfb.get_of_mem hd (List.mem_append_left _ hm) hp
  have gv := mem (p := gamePath "Version".toList) (e := .stream t.version)
    (by rw [TableBytes.entries_eq]; unfold TableBytes.tail; simp) (by simp [gamePath])
  have gg := mem (p := gamePath "GameData".toList) (e := .stream t.gamedata)
    (by rw [TableBytes.entries_eq]; unfold TableBytes.tail; simp) (by simp [gamePath])
  have gc := mem (p := gamePath "CustomInfoTags".toList) (e := .stream t.tags)
    (by rw [TableBytes.entries_eq]; simp) (by simp [gamePath])
  have gi := mem (p := [infoStg]) (e := .storage) (by rw [TableBytes.entries_eq]; simp) (by simp)
  have inTail : ∀ e ∈ t.tail, e ∈ t.file mac := by
    intro e he
    unfold TableBytes.file
    rw [TableBytes.entries_eq]
    simp [he]
  obtain ⟨info', hi, hsame⟩ := TableInfo.read_of_children h.info gi
    (by rw [TableBytes.file_children, ht.info])
  have r1 : readCustomInfoTags E (t.file mac) = .ok s.custominfotags := by
    unfold readCustomInfoTags
    rw [gc]
    obtain ⟨bs, hw, hr⟩ := C14_custominfotags_roundtrip s.custominfotags fun x hx => (h.tags x hx).1
    have hw' : CustomInfoTags.write s.custominfotags = .ok t.tags := by
      rw [ht.tags]
      exact writeBiff_ok _ (CustomInfoTags.reads fun x hx => (h.tags x hx).1).good
    rw [hw'] at hw
    cases hw
    exact hr
  have r2 : readVersion E (t.file mac) = .ok s.version := by
    unfold readVersion
    refine Res.bind_ok (openStream_of_get gv) ?_
    rw [ht.version]
    have := C49_file_roundtrip s.version []
    rwa [List.append_nil] at this
  have r3 : readGameData E s.version (t.file mac) = .ok s.gamedata := by
    unfold readGameData
    refine Res.bind_ok (openStream_of_get gg) ?_
    obtain ⟨bs, hw, hr⟩ := C12_gamedata_roundtrip s.version.number s.gamedata h.gamedata
    have hw' : s.gamedata.write s.version.number = .ok t.gamedata := by
      rw [ht.gamedata]; exact GameData.write_bytes h.gamedata.1 h.gamedata.2.1
    rw [hw'] at hw
    cases hw
    exact hr
  have r4 := readBlock (E := E) (dec := GameItemEnum.read) (name := "GameItem".toList)
    h.counts.gameitems hd ht.gameitems.length
    (fun e he => inTail e (by unfold TableBytes.tail; simp only [List.mem_append, he, true_or, or_true])) d1
  have r5 := readBlock (E := E) (dec := ImageData.read) (name := "Image".toList)
    h.counts.images hd ht.images.length
    (fun e he => inTail e (by unfold TableBytes.tail; simp only [List.mem_append, he, true_or, or_true])) d2
  have r6 := readBlock (E := E) (dec := SoundData.read E.ext s.version.number) (name := "Sound".toList)
    h.counts.sounds hd ht.sounds.length
    (fun e he => inTail e (by unfold TableBytes.tail; simp only [List.mem_append, he, true_or, or_true])) d3
  have r7 := readBlock (E := E) (dec := FontData.read) (name := "Font".toList)
    h.counts.fonts hd ht.fonts.length
    (fun e he => inTail e (by unfold TableBytes.tail; simp only [List.mem_append, he, true_or, or_true])) d4
  have r8 := readBlock (E := E) (dec := Collection.read) (name := "Collection".toList)
    h.counts.collections hd ht.collections.length
    (fun e he => inTail e (by unfold TableBytes.tail; simp only [List.mem_append, he, true_or, or_true])) d5
  refine ⟨{ s with info := info' }, ?_, ⟨rfl, hsame, rfl, rfl, rfl, rfl, rfl, rfl, rfl⟩⟩
  unfold VPX.read
  refine Res.bind_ok r1 ?_
  refine Res.bind_ok hi ?_
  refine Res.bind_ok r2 ?_
  refine Res.bind_ok r3 ?_
  refine Res.bind_ok r4 ?_
  refine Res.bind_ok r5 ?_
  refine Res.bind_ok r6 ?_
  refine Res.bind_ok r7 ?_
  refine Res.bind_ok r8 ?_
  rfl

theorem TableBytes.macInput_file {E : Env} {s : VPX} (h : s.WF E) {t : TableBytes} (ht : TableBytes.Of E s t)
    (mac : Bytes) : macInput E.toCfbLib (t.file mac) = .ok (s.hashInput E.toCfbLib) := by
  obtain ⟨-, hst, -⟩ := VPX.writeParts_ok h ht
  obtain ⟨hcs, -⟩ := TableBytes.file_st hst mac
  have frame : ∀ q, E.toCfbLib.kind q ≠ gkind "MAC".toList →
      Cfb.get E.toCfbLib t.entries q = Cfb.get E.toCfbLib (t.file mac) q := by
    intro q hq
    rw [Cfb.get_createStream hcs q, if_neg]
    intro hk
    exact hq ((kind_of_key hk).trans (kind_game (by decide)))
  rw [← TableBytes.macInput_ok h ht]
  have htags : tagNames E.toCfbLib t.entries = s.custominfotags := by
    have gc : Cfb.get E.toCfbLib t.entries (gamePath "CustomInfoTags".toList) = some (.stream t.tags) :=
      Cfb.get_of_mem hst.distinct (by rw [TableBytes.entries_eq]; simp) (by simp [gamePath])
    unfold tagNames
    rw [gc, ht.tags]
    dsimp only
    rw [custNames_tags fun x hx => (h.tags x hx).1]
  refine (macInput_congr ?_ ?_ ?_ ?_ ?_ ?_).symm
  · exact frame _ (by rw [kind_game (by decide)]; decide)
  · intro n _
    refine frame _ ?_
    rw [kind_info]
    exact (gkind_ne_info _ _).symm
  · exact frame _ (by rw [kind_game (by decide)]; decide)
  · intro x hx p hp
    rw [htags] at hx
    obtain ⟨h1, h2, h3, h4⟩ := (h.tags x hx).2
    rw [pathOf_info h2 h1 h3 h4] at hp
    cases hp
    refine frame _ ?_
    rw [kind_info]
    exact (gkind_ne_info _ _).symm
  · exact frame _ (by rw [kind_game (by decide)]; decide)
  · intro i
    exact frame _ (by rw [kind_item (by decide)]; decide)

/-- The file a storable table is written to. -/
theorem VPX.write_file {E : Env} {s : VPX} (h : s.WF E) {t : TableBytes} (ht : TableBytes.Of E s t) :
    s.write E = .ok (t.file (E.md2 (s.hashInput E.toCfbLib))) := by
  obtain ⟨hw, hst, -⟩ := VPX.writeParts_ok h ht
  rw [VPX.write_eq]
  refine Res.bind_ok hw ?_
  unfold refreshMac
  refine Res.bind_ok (a := E.md2 (s.hashInput E.toCfbLib)) ?_ ?_
  · unfold generateMac
    exact Res.bind_ok (TableBytes.macInput_ok h ht) rfl
  · exact (TableBytes.file_st hst _).1

end Vpin
