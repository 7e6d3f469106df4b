import Verif.Props.FileOps
/-
C25 for whole tables: what reading gives after the game data was rewritten; C26: the minimal table.
-/
namespace Vpin
variable {E : Env}

/-! ### C25 -/

theorem readStorage_info (L : CfbLib) (c : Cfb) : c.readStorage L [infoStg]
    = if c.get L [infoStg] = some .storage then some (L.order (infoChildren L c)) else none := rfl

theorem createStream_children {c c' : Cfb} {n : Str} {bs : Bytes}
    (h : c.createStream E.toCfbLib (gamePath n) bs = .ok c') :
    c'.readStorage E.toCfbLib [infoStg] = c.readStorage E.toCfbLib [infoStg] := by
  have hne : E.key [infoStg] ≠ E.key (gamePath n) := by
    intro hk
    have h2 := congrArg List.length hk
    simp [CfbLib.key, gamePath] at h2
  have hg : c'.get E.toCfbLib [infoStg] = c.get E.toCfbLib [infoStg] := by
    rw [Cfb.get_createStream h, if_neg hne]
  have hlist : infoChildren E.toCfbLib c' = infoChildren E.toCfbLib c := by
    unfold Cfb.createStream at h
    split at h
    · cases h
    · cases h
      rename_i hget
      clear hg hget
      induction c with
      | nil => rfl
      | cons x xs ih =>
        rw [List.map_cons]
        have e1 : ∀ (y : Path × Entry) (ys : Cfb), infoChildren E.toCfbLib (y :: ys)
            = infoChildren E.toCfbLib [y] ++ infoChildren E.toCfbLib ys := fun y ys =>
          infoChildren_append [y] ys
        rw [e1, e1 x xs, ih]
        congr 1
        split
        · next hk =>
          have hd : E.key x.1.dropLast ≠ E.key [infoStg] := by
            intro hx
            have hl : E.key x.1.dropLast = (E.key x.1).dropLast := by
              unfold CfbLib.key; rw [List.map_dropLast]
            rw [hl, hk] at hx
            exact key_stg_ne (L := E.toCfbLib) hx
          rw [infoChildren_none, infoChildren_none]
          · intro e he; rw [List.mem_singleton.1 he]; exact hd
          · intro e he; rw [List.mem_singleton.1 he]; exact hd
        · rfl
    · obtain ⟨-, rfl, -⟩ := Cfb.add_inv h
      rw [infoChildren_append, infoChildren_none (c := [_]), List.append_nil]
      intro e he
      rw [List.mem_singleton.1 he]
      exact key_stg_ne
  rw [readStorage_info, readStorage_info, hg, hlist]

/-- what rewriting game data and checksum leaves as it is, as reading sees it -/
structure KeepsRest (E : Env) (c c' : Cfb) : Prop where
  only : OnlyGameData E c c'
  children : c'.readStorage E.toCfbLib [infoStg] = c.readStorage E.toCfbLib [infoStg]

theorem KeepsRest.of_write {c c' : Cfb} {g : GameData} {v : Version}
    (h : (writeGameData E g v c >>= refreshMac E) = .ok c') : KeepsRest E c c' := by
  refine ⟨writeRefresh_only h, ?_⟩
  obtain ⟨c1, h1, h2⟩ := Res.bind_inv h
  unfold writeGameData at h1
  obtain ⟨bs, -, h1⟩ := Res.bind_inv h1
  unfold refreshMac at h2
  obtain ⟨m, -, h2⟩ := Res.bind_inv h2
  rw [createStream_children h2, createStream_children h1]

theorem readFrom_congr {α : Type} {c c' : Cfb} {name : Str} {dec : Bytes → Res α}
    (h : ∀ i, c'.get E.toCfbLib (itemPath name i) = c.get E.toCfbLib (itemPath name i)) (n : Nat) :
    ∀ i, readFrom E name dec i n c' = readFrom E name dec i n c := by
  induction n with
  | zero => intro i; rfl
  | succ n ih =>
    intro i
    unfold readFrom
    have : c'.openStream E.toCfbLib (itemPath name i) = c.openStream E.toCfbLib (itemPath name i) := by
      unfold Cfb.openStream; rw [h i]
    rw [this, ih]

/-- If a table can be read before, then after only game data and checksum changed, and with unchanged
counts, everything else is read as before. -/
theorem KeepsRest.read {c c' : Cfb} (h : KeepsRest E c c') {s : VPX} (hr : VPX.read E c = .ok s)
    {g : GameData} (hg : readGameData E s.version c' = .ok g)
    (h1 : g.gameitems_size = s.gamedata.gameitems_size) (h2 : g.images_size = s.gamedata.images_size)
    (h3 : g.sounds_size = s.gamedata.sounds_size) (h4 : g.fonts_size = s.gamedata.fonts_size)
    (h5 : g.collections_size = s.gamedata.collections_size) :
    VPX.read E c' = .ok { s with gamedata := g } := by
  have ne := fun (i : Nat) => C25_which_streams E i []
  have item : ∀ name, name ∈ ["GameItem".toList, "Image".toList, "Sound".toList, "Font".toList, "Collection".toList] →
      ∀ i, c'.get E.toCfbLib (itemPath name i) = c.get E.toCfbLib (itemPath name i) := by
    intro name hn i
    refine h.only _ ?_ ?_
    · refine (ne i _ ?_).1
      simp only [List.mem_cons, List.not_mem_nil, or_false] at hn
      rcases hn with rfl | rfl | rfl | rfl | rfl <;> simp only [List.mem_cons, true_or, or_true]
    · refine (ne i _ ?_).2
      simp only [List.mem_cons, List.not_mem_nil, or_false] at hn
      rcases hn with rfl | rfl | rfl | rfl | rfl <;> simp only [List.mem_cons, true_or, or_true]
  have ht : readCustomInfoTags E c' = readCustomInfoTags E c := by
    have : c'.get E.toCfbLib (gamePath "CustomInfoTags".toList)
        = c.get E.toCfbLib (gamePath "CustomInfoTags".toList) :=
      h.only _ (ne 0 _ (by simp only [List.mem_cons, true_or, or_true])).1
        (ne 0 _ (by simp only [List.mem_cons, true_or, or_true])).2
    unfold readCustomInfoTags
    rw [this]
  have hi : TableInfo.read E.toCfbLib c' = TableInfo.read E.toCfbLib c := by
    unfold TableInfo.read; rw [h.children]
  unfold VPX.read at hr ⊢
  obtain ⟨tags, r1, hr⟩ := Res.bind_inv hr
  obtain ⟨info, r2, hr⟩ := Res.bind_inv hr
  obtain ⟨version, r3, hr⟩ := Res.bind_inv hr
  obtain ⟨gd, r4, hr⟩ := Res.bind_inv hr
  obtain ⟨items, r5, hr⟩ := Res.bind_inv hr
  obtain ⟨images, r6, hr⟩ := Res.bind_inv hr
  obtain ⟨sounds, r7, hr⟩ := Res.bind_inv hr
  obtain ⟨fonts, r8, hr⟩ := Res.bind_inv hr
  obtain ⟨colls, r9, hr⟩ := Res.bind_inv hr
  cases hr
  dsimp only at hg h1 h2 h3 h4 h5
  refine Res.bind_ok (ht.trans r1) ?_
  refine Res.bind_ok (hi.trans r2) ?_
  refine Res.bind_ok (h.only.version.trans r3) ?_
  refine Res.bind_ok hg ?_
  rw [← h1] at r5
  rw [← h2] at r6
  rw [← h3] at r7
  rw [← h4] at r8
  rw [← h5] at r9
  refine Res.bind_ok ((readFrom_congr (item _ (by decide)) _ _).trans r5) ?_
  refine Res.bind_ok ((readFrom_congr (item _ (by decide)) _ _).trans r6) ?_
  refine Res.bind_ok ((readFrom_congr (item _ (by decide)) _ _).trans r7) ?_
  refine Res.bind_ok ((readFrom_congr (item _ (by decide)) _ _).trans r8) ?_
  refine Res.bind_ok ((readFrom_congr (item _ (by decide)) _ _).trans r9) ?_
  rfl

/-- **C25.** Reading the whole table after `lock` or `unlock` gives the table from before, except for the
lock counter. -/
theorem C25_lock_keeps_table (E : Env) (c : Cfb) (v : Version) (g : GameData) (h : TableFile E c v g)
    (s : VPX) (hr : VPX.read E c = .ok s) (call : LockCall) :
    ∃ b c' n, call.run E c = .ok (b, c') ∧
      VPX.read E c' = .ok { s with gamedata := { s.gamedata with locked := n } } := by
  have hs : s.version = v ∧ s.gamedata = g := by
    unfold VPX.read at hr
    obtain ⟨tags, r1, hr⟩ := Res.bind_inv hr
    obtain ⟨info, r2, hr⟩ := Res.bind_inv hr
    obtain ⟨version, r3, hr⟩ := Res.bind_inv hr
    obtain ⟨gd, r4, hr⟩ := Res.bind_inv hr
    obtain ⟨items, r5, hr⟩ := Res.bind_inv hr
    obtain ⟨images, r6, hr⟩ := Res.bind_inv hr
    obtain ⟨sounds, r7, hr⟩ := Res.bind_inv hr
    obtain ⟨fonts, r8, hr⟩ := Res.bind_inv hr
    obtain ⟨colls, r9, hr⟩ := Res.bind_inv hr
    cases hr
    have hv := h.version
    rw [r3] at hv; cases hv
    have hg := h.gamedata
    rw [r4] at hg; cases hg
    exact ⟨rfl, rfl⟩
  obtain ⟨rfl, rfl⟩ := hs
  rcases LockCall.run_ok h call with ⟨-, hrun⟩ | ⟨-, c', hrun, ht, -, -⟩
  · exact ⟨false, c, s.gamedata.locked, hrun, hr⟩
  · refine ⟨true, c', some (s.gamedata.lockCount + 1), hrun, ?_⟩
    have hk : KeepsRest E c c' := by
      cases call with
      | lock =>
        simp only [LockCall.run, lock] at hrun
        obtain ⟨g', -, hrun⟩ := Res.bind_inv hrun
        split at hrun
        · cases hrun
        · obtain ⟨c2, hu, hrun⟩ := Res.bind_inv hrun
          cases hrun
          unfold updateGameData at hu
          obtain ⟨v', -, hu⟩ := Res.bind_inv hu
          exact KeepsRest.of_write hu
      | unlock =>
        simp only [LockCall.run, unlock] at hrun
        obtain ⟨g', -, hrun⟩ := Res.bind_inv hrun
        split at hrun
        · cases hrun
        · obtain ⟨c2, hu, hrun⟩ := Res.bind_inv hrun
          cases hrun
          unfold updateGameData at hu
          obtain ⟨v', -, hu⟩ := Res.bind_inv hu
          exact KeepsRest.of_write hu
    exact hk.read hr ht.gamedata rfl rfl rfl rfl rfl

/-- a written table with images, items and custom info meets the hypotheses of `C25_lock_keeps_table` -/
example : ∃ c s, TableFile sampleEnv c ⟨1080⟩ VPX.sample.gamedata ∧ VPX.read sampleEnv c = .ok s := by
  obtain ⟨c, hw, ht⟩ := VPX.write_tableFile VPX.sample_wf
  obtain ⟨c', s', hw', hr, -⟩ := C22_table_roundtrip sampleEnv VPX.sample VPX.sample_wf
  rw [hw] at hw'; cases hw'
  exact ⟨c, s', ht, hr⟩

/-! ### C26: the minimal table -/

/-- the entries of the minimal table before its checksum -/
def minimalEntries (data : Bytes) : Cfb :=
  [([infoStg], .storage), ([gameStg], .storage), (gamePath "Version".toList, .stream (Version.bytes ⟨1072⟩)),
   (gamePath "GameData".toList, .stream data)]

/-- **C26.** The minimal table is written, passes the check, and is read back as a table with the default game
data and nothing else. -/
theorem C26_minimal_verifies (E : Env) :
    ∃ c, writeMinimal E = .ok c ∧ verify E c = .ok true ∧
      VPX.read E c = .ok ⟨[], TableInfo.new, ⟨1072⟩, GameData.default, [], [], [], [], []⟩ := by
  obtain ⟨data, d, hw, hd⟩ := GameData.hash_ok (v := 1072) (GameData.default_wf 1072).1 (GameData.default_wf 1072).2.1
  obtain ⟨data', hw', hrd⟩ := C12_gamedata_roundtrip 1072 GameData.default (GameData.default_wf 1072)
  rw [hw] at hw'; cases hw'
  have a1 : TableInfo.new.write E.toCfbLib [] = .ok [([infoStg], .storage)] := by
    unfold TableInfo.write
    refine Res.bind_ok (Cfb.createStorage_fresh (d := []) (Cfb.get_nil (by simp)) (Cfb.get_root _) (by decide)) ?_
    rfl
  have hgi : Cfb.get E.toCfbLib [([infoStg], Entry.storage)] ([] ++ [gameStg]) = none := by
    refine get_none_of_kind (by simp) ?_
    intro e he
    rw [List.mem_singleton.1 he, kind_infoStg, List.nil_append, kind_stg]
    decide
  have a2 : Cfb.createStorage E.toCfbLib [([infoStg], .storage)] [gameStg]
      = .ok [([infoStg], .storage), ([gameStg], .storage)] :=
    Cfb.createStorage_fresh (d := []) hgi (Cfb.get_root _) (by decide)
  have s2 : St E.toCfbLib [([infoStg], .storage), ([gameStg], .storage)] [[gameStg.map asciiUpper]] := by
    refine ⟨Cfb.Distinct.append_one (c := [([infoStg], .storage)]) (by simp [Cfb.Distinct]) hgi, ?_, ?_, ?_⟩
    · intro e he
      simp only [List.mem_cons, List.not_mem_nil, or_false] at he
      rcases he with rfl | rfl
      · exact .inr ⟨_, kind_infoStg⟩
      · exact .inl (by rw [kind_stg]; exact List.mem_cons_self)
    · rw [Cfb.get_cons (by simp), if_neg (Ne.symm key_stg_ne), Cfb.get_cons (by simp), if_pos rfl]
    · intro e he _
      simp only [List.mem_cons, List.not_mem_nil, or_false] at he
      rcases he with rfl | rfl <;> rfl
  obtain ⟨a3, s3⟩ := s2.stream (name := "Version".toList) (by decide) (by decide) (by decide)
    (Version.bytes ⟨1072⟩)
  obtain ⟨a4, s4⟩ := s3.stream (name := "GameData".toList) (by decide) (by decide) (by decide) data
  have s4' : St E.toCfbLib (minimalEntries data) _ := s4
  have none_of : ∀ n, Stem n → gkind n ≠ gkind "Version".toList → gkind n ≠ gkind "GameData".toList → n ≠ [] →
      ∀ p, E.kind p = gkind n → (minimalEntries data).get E.toCfbLib p = none := by
    intro n hs h1 h2 h0 p hp
    refine s4'.fresh hp ?_
    simp only [List.mem_cons, List.not_mem_nil, or_false, not_or]
    exact ⟨h2, h1, by simp [gkind]⟩
  have hcust : (minimalEntries data).get E.toCfbLib (gamePath "CustomInfoTags".toList) = none :=
    none_of _ (by decide) (by decide) (by decide) (by decide) _ (kind_game (by decide))
  have hcoll : ∀ i, (minimalEntries data).get E.toCfbLib (itemPath "Collection".toList i) = none := fun i =>
    none_of _ (by decide) (by decide) (by decide) (by decide) _ (kind_item (by decide) i)
  have hinfo : ∀ n, (minimalEntries data).get E.toCfbLib [infoStg, n] = none := by
    intro n
    refine get_none_of_kind (by simp) ?_
    intro e he
    simp only [minimalEntries, List.mem_cons, List.not_mem_nil, or_false] at he
    rcases he with rfl | rfl | rfl | rfl
    · rw [kind_infoStg, kind_info]; simp
    · rw [kind_stg, kind_info]; simp
    · rw [kind_game (by decide)]; exact fun h => info_ne_game _ _ h.symm
    · rw [kind_game (by decide)]; exact fun h => info_ne_game _ _ h.symm
  have hver : (minimalEntries data).get E.toCfbLib (gamePath "Version".toList)
      = some (.stream (Version.bytes ⟨1072⟩)) :=
    Cfb.get_of_mem s4'.distinct (by simp [minimalEntries]) (by simp [gamePath])
  have hdat : (minimalEntries data).get E.toCfbLib (gamePath "GameData".toList) = some (.stream data) :=
    Cfb.get_of_mem s4'.distinct (by simp [minimalEntries]) (by simp [gamePath])
  have hmac : ∃ b, macInput E.toCfbLib (minimalEntries data) = .ok b := by
    unfold macInput
    rw [bytesIf_stream hver, concatM_flatMap (g := fun _ => []) (fun n _ => bytesIf_none (hinfo n)),
      hashBiffIf_stream hdat, hd]
    have e1 : hashCustom E.toCfbLib (minimalEntries data) = .ok [] := by
      unfold hashCustom Cfb.exists; rw [hcust]; rfl
    have e2 : collectionPaths E.toCfbLib (minimalEntries data) = [] := by
      have := collectionPaths_of (L := E.toCfbLib) (c := minimalEntries data) (n := 0) (by omega)
        (by unfold Cfb.exists; rw [hcoll]; rfl)
      simpa using this
    rw [e1, e2]
    exact ⟨_, rfl⟩
  obtain ⟨b, hb⟩ := hmac
  obtain ⟨a5, s5⟩ := s4'.stream (name := "MAC".toList) (by decide) (by decide) (by decide) (E.md2 b)
  have hrf : refreshMac E (minimalEntries data) = .ok (minimalEntries data ++ [(gamePath "MAC".toList, .stream (E.md2 b))]) := by
    unfold refreshMac generateMac
    rw [hb]; exact a5
  have htag : tagNames E.toCfbLib (minimalEntries data) = [] := by
    unfold tagNames; rw [hcust]
  refine ⟨_, ?_, verify_refreshed hrf (by rw [htag]; intro t ht; cases ht), ?_⟩
  · unfold writeMinimal
    refine Res.bind_ok a1 ?_
    refine Res.bind_ok a2 ?_
    refine Res.bind_ok (by unfold writeVersion; exact a3) ?_
    refine Res.bind_ok (a := minimalEntries data) (by unfold writeGameData; exact Res.bind_ok hw a4) ?_
    exact hrf
  · obtain ⟨m, -, -, hwm, f⟩ := refreshMac_inv hrf
    have fk : ∀ q, E.kind q ≠ gkind "MAC".toList → Cfb.get E.toCfbLib (minimalEntries data ++
        [(gamePath "MAC".toList, .stream (E.md2 b))]) q = (minimalEntries data).get E.toCfbLib q := fun q hq =>
      f q (key_ne_of_kind (by rw [kind_mac]; exact hq))
    unfold VPX.read
    have r1 : readCustomInfoTags E (minimalEntries data ++ [(gamePath "MAC".toList, .stream (E.md2 b))]) = .ok [] := by
      unfold readCustomInfoTags
      rw [fk _ (by rw [kind_game (by decide)]; decide), hcust]
    refine Res.bind_ok r1 ?_
    have r2 : TableInfo.read E.toCfbLib (minimalEntries data ++ [(gamePath "MAC".toList, .stream (E.md2 b))])
        = .ok TableInfo.new := by
      have hst : Cfb.get E.toCfbLib (minimalEntries data ++ [(gamePath "MAC".toList, .stream (E.md2 b))]) [infoStg]
          = some .storage := by
        rw [fk _ (by rw [kind_infoStg]; decide)]
        exact Cfb.get_of_mem s4'.distinct (by simp [minimalEntries]) (by simp)
      have hch : infoChildren E.toCfbLib (minimalEntries data ++ [(gamePath "MAC".toList, .stream (E.md2 b))]) = [] := by
        refine infoChildren_none ?_
        intro e he
        simp only [minimalEntries, List.cons_append, List.nil_append, List.mem_cons, List.not_mem_nil, or_false] at he
        rcases he with rfl | rfl | rfl | rfl | rfl
        · simp [CfbLib.key]
        · simp [CfbLib.key]
        · exact key_stg_ne
        · exact key_stg_ne
        · exact key_stg_ne
      unfold TableInfo.read
      rw [readStorage_info, if_pos hst, hch, List.perm_nil.1 (E.order_perm ([] : List (Str × Entry)))]
      rfl
    refine Res.bind_ok r2 ?_
    have r3 : readVersion E (minimalEntries data ++ [(gamePath "MAC".toList, .stream (E.md2 b))]) = .ok ⟨1072⟩ := by
      unfold readVersion
      refine Res.bind_ok (openStream_of_get ((fk _ (by rw [kind_game (by decide)]; decide)).trans hver)) ?_
      have := C49_file_roundtrip ⟨1072⟩ []
      rwa [List.append_nil] at this
    refine Res.bind_ok r3 ?_
    have r4 : readGameData E ⟨1072⟩ (minimalEntries data ++ [(gamePath "MAC".toList, .stream (E.md2 b))])
        = .ok GameData.default := by
      unfold readGameData
      exact Res.bind_ok (openStream_of_get ((fk _ (by rw [kind_game (by decide)]; decide)).trans hdat)) hrd
    refine Res.bind_ok r4 ?_
    rfl

end Vpin
