import Verif.Lemmas.Vpx
/-
The file `write_vpx` makes of a table, entry by entry.
-/
namespace Vpin
variable {L : CfbLib}

theorem streams_folds_nodup {s : TableInfo} (h : s.WF L) : (s.streams.map fun x => L.fold x.1).Nodup := by
  refine List.Nodup.sublist ?_ h.distinct
  unfold TableInfo.streams
  rw [List.map_append, List.map_map, List.map_append, List.map_map]
  refine List.Sublist.append ?_ (List.Sublist.refl _)
  rw [← known_names s]
  generalize s.known = l
  induction l with
  | nil => exact List.Sublist.refl _
  | cons x xs ih =>
    obtain ⟨n, o⟩ := x
    cases o with
    | none => exact ih.cons _
    | some b => exact ih.cons_cons _

theorem infoEntries_kind (l : List (Str × Bytes)) : ∀ e ∈ infoEntries l, ∃ n, L.kind e.1 = infoStg.map asciiUpper :: n := by
  intro e he
  obtain ⟨x, -, rfl⟩ := List.mem_map.1 he
  exact ⟨_, kind_info x.1⟩

/-- The table info block. -/
theorem St.tableInfo {c : Cfb} {ks : List (List Str)} (h : St L c ks)
    (hn : ∀ e ∈ c, ¬ ∃ n, L.kind e.1 = infoStg.map asciiUpper :: n) {s : TableInfo} (hs : s.WF L) :
    s.write L c = .ok (c ++ [([infoStg], .storage)] ++ infoEntries s.streams) ∧
    St L (c ++ [([infoStg], .storage)] ++ infoEntries s.streams) ks := by
  have hf : ∀ p n, L.kind p = infoStg.map asciiUpper :: n → c.get L p = none := by
    intro p n hp
    refine get_none_of_kind ?_ ?_
    · rintro rfl; cases hp
    · intro e he hk
      exact hn e he ⟨n, hk.trans hp⟩
  have h0 : c.get L [infoStg] = none := hf _ _ kind_infoStg
  have h1 : ∀ n, c.get L [infoStg, n] = none := fun n => hf _ _ (kind_info n)
  refine ⟨TableInfo.write_ok hs h0 h1, ?_, ?_, ?_, ?_⟩
  · have hd := h.distinct.append_one (e := Entry.storage) h0
    unfold Cfb.Distinct at hd ⊢
    rw [List.map_append]
    refine List.nodup_append.2 ⟨hd, ?_, ?_⟩
    · have e : (infoEntries s.streams).map (fun e => L.key e.1)
          = (s.streams.map fun x => L.fold x.1).map fun n => [L.fold infoStg, n] := by
        unfold infoEntries
        rw [List.map_map, List.map_map]; rfl
      rw [e]
      unfold List.Nodup
      rw [List.pairwise_map]
      refine List.Pairwise.imp ?_ (streams_folds_nodup hs)
      intro a b hab he
      simp at he
      exact hab he
    · intro a ha b hb he
      subst he
      obtain ⟨x, hx, rfl⟩ := List.mem_map.1 hb
      obtain ⟨y, -, rfl⟩ := List.mem_map.1 hx
      obtain ⟨z, hz, hk⟩ := List.mem_map.1 ha
      have hk' : L.key z.1 = L.key [infoStg, y.1] := hk
      rcases List.mem_append.1 hz with hz | hz
      · exact hn z hz ⟨_, (kind_of_key hk').trans (kind_info y.1)⟩
      · rw [List.mem_singleton.1 hz] at hk'
        simp [CfbLib.key] at hk'
  · intro e he
    rcases List.mem_append.1 he with he | he
    · rcases List.mem_append.1 he with he | he
      · exact h.kinds e he
      · rw [List.mem_singleton.1 he]; exact .inr ⟨_, kind_infoStg⟩
    · exact .inr (infoEntries_kind _ e he)
  · rw [List.append_assoc]; exact Cfb.get_append_some h.stg
  · intro e he hst
    rcases List.mem_append.1 he with he | he
    · rcases List.mem_append.1 he with he | he
      · exact h.storages e he hst
      · rw [List.mem_singleton.1 he]; rfl
    · obtain ⟨x, -, rfl⟩ := List.mem_map.1 he
      cases hst

/-- the parts of a table as bytes -/
structure TableBytes where
  tags : Bytes
  info : List (Str × Bytes)
  version : Bytes
  gamedata : Bytes
  gameitems : List Bytes
  images : List Bytes
  sounds : List Bytes
  fonts : List Bytes
  collections : List Bytes

/-- the file made of them, without the checksum -/
def TableBytes.entries (t : TableBytes) : Cfb :=
  [([gameStg], .storage)] ++ [(gamePath "CustomInfoTags".toList, .stream t.tags)]
    ++ [([infoStg], .storage)] ++ infoEntries t.info
    ++ [(gamePath "Version".toList, .stream t.version)]
    ++ [(gamePath "GameData".toList, .stream t.gamedata)]
    ++ blockEntries "GameItem".toList 0 t.gameitems
    ++ blockEntries "Image".toList 0 t.images
    ++ blockEntries "Sound".toList 0 t.sounds
    ++ blockEntries "Font".toList 0 t.fonts
    ++ blockEntries "Collection".toList 0 t.collections

/-- `t` is the table `s` part by part. -/
structure TableBytes.Of (E : Env) (s : VPX) (t : TableBytes) : Prop where
  tags : t.tags = bytesOf (CustomInfoTags.ops s.custominfotags) ++ endbBytes
  info : t.info = s.info.streams
  version : t.version = s.version.bytes
  gamedata : t.gamedata = bytesOf (s.gamedata.ops s.version.number) ++ endbBytes
  gameitems : Encodes GameItemEnum.write s.gameitems t.gameitems
  images : Encodes ImageData.write s.images t.images
  sounds : Encodes (SoundData.write E.ext s.version.number) s.sounds t.sounds
  fonts : Encodes FontData.write s.fonts t.fonts
  collections : Encodes Collection.write s.collections t.collections

def tableKinds : List (List Str) :=
  [gkind "Collection".toList, gkind "Font".toList, gkind "Sound".toList, gkind "Image".toList,
   gkind "GameItem".toList, gkind "GameData".toList, gkind "Version".toList,
   gkind "CustomInfoTags".toList, [gameStg.map asciiUpper]]

/-- everything up to the checksum -/
def VPX.writeParts (E : Env) (s : VPX) : Res Cfb := do
  let c ← Cfb.createStorage E.toCfbLib [] [gameStg]
  let c ← writeCustomInfoTags E s.custominfotags c
  let c ← s.info.write E.toCfbLib c
  let c ← writeVersion E s.version c
  let c ← writeGameData E s.gamedata s.version c
  let c ← writeFrom E "GameItem".toList GameItemEnum.write 0 s.gameitems c
  let c ← writeImagesFrom E 0 s.images c
  let c ← writeFrom E "Sound".toList (SoundData.write E.ext s.version.number) 0 s.sounds c
  let c ← writeFrom E "Font".toList FontData.write 0 s.fonts c
  writeFrom E "Collection".toList Collection.write 0 s.collections c

theorem Res.bind_ok {α β : Type} {x : Res α} {a : α} {f : α → Res β} {r : Res β} (h : x = .ok a)
    (hf : f a = r) : (x >>= f) = r := by
  rw [h]; exact hf

theorem VPX.write_eq (E : Env) (s : VPX) : s.write E = (s.writeParts E >>= refreshMac E) := by
  unfold VPX.write VPX.writeParts
  simp only [bind_assoc]

theorem VPX.writeParts_ok {E : Env} {s : VPX} (h : s.WF E) {t : TableBytes} (ht : t.Of E s) :
    s.writeParts E = .ok t.entries ∧ St E.toCfbLib t.entries tableKinds ∧
    ∀ j, s.collections.length ≤ j →
      Cfb.get E.toCfbLib t.entries (itemPath "Collection".toList j) = none := by
  have hcnt : ∀ {n : UInt32} {m : Nat}, n.toNat = m → m < 2 ^ 32 := fun {n m} hn => by
    rw [← hn]; exact n.toNat_lt
  -- GameStg
  have a1 : Cfb.createStorage E.toCfbLib [] [gameStg] = .ok [([gameStg], .storage)] :=
    Cfb.createStorage_fresh (d := []) (Cfb.get_nil (by simp)) (Cfb.get_root _) (by decide)
  have s1 : St E.toCfbLib [([gameStg], .storage)] [[gameStg.map asciiUpper]] := by
    refine ⟨by simp [Cfb.Distinct], ?_, ?_, ?_⟩
    · intro e he
      rw [List.mem_singleton.1 he]
      exact .inl (by rw [kind_stg]; exact List.mem_cons_self)
    · rw [Cfb.get_cons (by simp), if_pos rfl]
    · intro e he _
      rw [List.mem_singleton.1 he]; rfl
  -- tags
  have ht1 : CustomInfoTags.write s.custominfotags = .ok t.tags := by
    rw [ht.tags]
    exact writeBiff_ok _ (CustomInfoTags.reads fun x hx => (h.tags x hx).1).good
  obtain ⟨a2, s2⟩ := s1.stream (name := "CustomInfoTags".toList) (by decide) (by decide) (by decide) t.tags
  -- info
  obtain ⟨a3, s3⟩ := s2.tableInfo (by
    intro e he
    rintro ⟨n, hn⟩
    have hh : (E.toCfbLib.kind e.1).head? = some (infoStg.map asciiUpper) := congrArg List.head? hn
    rcases List.mem_append.1 he with he | he
    · rw [List.mem_singleton.1 he, kind_stg] at hh
      exact absurd hh (by decide)
    · rw [List.mem_singleton.1 he, kind_game (by decide)] at hh
      exact absurd hh (by decide)) h.info
  rw [← ht.info] at a3 s3
  -- version
  obtain ⟨a4, s4⟩ := s3.stream (name := "Version".toList) (by decide) (by decide) (by decide) t.version
  -- game data
  have ht5 : s.gamedata.write s.version.number = .ok t.gamedata := by
    rw [ht.gamedata]; exact GameData.write_bytes h.gamedata.1 h.gamedata.2.1
  obtain ⟨a5, s5⟩ := s4.stream (name := "GameData".toList) (by decide) (by decide) (by decide) t.gamedata
  obtain ⟨a6, s6, -⟩ := s5.block (E := E) (name := "GameItem".toList) (by decide) (by decide) (by decide)
    ht.gameitems (hcnt h.counts.gameitems)
  obtain ⟨a7, s7⟩ := s6.images (E := E) (by decide) ht.images (hcnt h.counts.images)
  obtain ⟨a8, s8, -⟩ := s7.block (E := E) (name := "Sound".toList) (by decide) (by decide) (by decide)
    ht.sounds (hcnt h.counts.sounds)
  obtain ⟨a9, s9, -⟩ := s8.block (E := E) (name := "Font".toList) (by decide) (by decide) (by decide)
    ht.fonts (hcnt h.counts.fonts)
  obtain ⟨a10, s10, f10⟩ := s9.block (E := E) (name := "Collection".toList) (by decide) (by decide) (by decide)
    ht.collections (hcnt h.counts.collections)
  refine ⟨?_, s10, f10⟩
  unfold VPX.writeParts
  refine Res.bind_ok a1 ?_
  refine Res.bind_ok (a := [([gameStg], Entry.storage)] ++ [(gamePath "CustomInfoTags".toList, .stream t.tags)]) ?_ ?_
  · unfold writeCustomInfoTags
    exact Res.bind_ok ht1 a2
  refine Res.bind_ok a3 ?_
  refine Res.bind_ok (by unfold writeVersion; rw [← ht.version]; exact a4) ?_
  refine Res.bind_ok (by unfold writeGameData; exact Res.bind_ok ht5 a5) ?_
  refine Res.bind_ok a6 ?_
  refine Res.bind_ok a7 ?_
  refine Res.bind_ok a8 ?_
  refine Res.bind_ok a9 ?_
  exact a10

end Vpin
