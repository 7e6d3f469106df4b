import Verif.Lemmas.VpxWrite
/-
The checksum input of a written table.
-/
namespace Vpin
variable {L : CfbLib}

theorem blockEntries_kind {name : Str} (hs : Stem name) {i : Nat} {l : List Bytes} {e : Path × Entry}
    (h : e ∈ blockEntries name i l) : L.kind e.1 = gkind name := by
  obtain ⟨k, b, -, rfl⟩ := blockEntries_inv h
  exact kind_item hs _

/-- the content of the table info stream with this name (ignoring case), empty if there is none -/
def infoValue (L : CfbLib) (l : List (Str × Bytes)) (n : Str) : Bytes :=
  match l.find? fun x => L.fold x.1 == L.fold n with
  | some x => x.2
  | none => []

theorem infoEntries_get (l : List (Str × Bytes)) (n : Str) :
    Cfb.get L (infoEntries l) [infoStg, n] =
      (l.find? fun x => L.fold x.1 == L.fold n).map fun x => .stream x.2 := by
  induction l with
  | nil => exact Cfb.get_nil (by simp)
  | cons x xs ih =>
    show Cfb.get L (([infoStg, x.1], Entry.stream x.2) :: infoEntries xs) _ = _
    rw [Cfb.get_cons (by simp), ih, List.find?_cons]
    by_cases hk : L.fold x.1 = L.fold n
    · rw [if_pos (by simp [CfbLib.key, hk])]; simp [hk]
    · rw [if_neg (by simp [CfbLib.key, hk])]
      have : (L.fold x.1 == L.fold n) = false := by simpa using hk
      rw [this]

/-- the entries behind the table info -/
def TableBytes.tail (t : TableBytes) : Cfb :=
  [(gamePath "Version".toList, .stream t.version)]
    ++ [(gamePath "GameData".toList, .stream t.gamedata)]
    ++ blockEntries "GameItem".toList 0 t.gameitems
    ++ blockEntries "Image".toList 0 t.images
    ++ blockEntries "Sound".toList 0 t.sounds
    ++ blockEntries "Font".toList 0 t.fonts
    ++ blockEntries "Collection".toList 0 t.collections

theorem TableBytes.entries_eq (t : TableBytes) :
    t.entries = ([([gameStg], .storage), (gamePath "CustomInfoTags".toList, .stream t.tags),
      ([infoStg], .storage)] : Cfb) ++ (infoEntries t.info ++ t.tail) := by
  unfold TableBytes.entries TableBytes.tail
  simp only [List.append_assoc, List.cons_append, List.nil_append]

theorem TableBytes.tail_kind (t : TableBytes) : ∀ e ∈ t.tail, ∃ n, L.kind e.1 = gkind n := by
  intro e he
  unfold TableBytes.tail at he
  simp only [List.mem_append, List.mem_singleton] at he
  rcases he with (((((rfl | rfl) | he) | he) | he) | he) | he
  · exact ⟨"Version".toList, kind_game (by decide)⟩
  · exact ⟨"GameData".toList, kind_game (by decide)⟩
  · exact ⟨_, blockEntries_kind (by decide) he⟩
  · exact ⟨_, blockEntries_kind (by decide) he⟩
  · exact ⟨_, blockEntries_kind (by decide) he⟩
  · exact ⟨_, blockEntries_kind (by decide) he⟩
  · exact ⟨_, blockEntries_kind (by decide) he⟩

theorem gkind_ne_info (n : Str) (m : List Str) : gkind n ≠ infoStg.map asciiUpper :: m := by
  intro h
  have h2 : some (gameStg.map asciiUpper) = some (infoStg.map asciiUpper) := congrArg List.head? h
  exact absurd h2 (by decide)

theorem TableBytes.get_info (t : TableBytes) (n : Str) :
    Cfb.get L t.entries [infoStg, n] =
      (t.info.find? fun x => L.fold x.1 == L.fold n).map fun x => .stream x.2 := by
  rw [TableBytes.entries_eq, Cfb.get_append_none, Cfb.get_append (by simp), infoEntries_get,
    get_none_of_kind (c := t.tail) (by simp), Option.or_none]
  · intro e he hk
    obtain ⟨m, hm⟩ := t.tail_kind (L := L) e he
    rw [hm, kind_info] at hk
    exact gkind_ne_info _ _ hk
  · have e1 : L.key [gameStg] ≠ L.key [infoStg, n] := by simp [CfbLib.key]
    have e2 : L.key (gamePath "CustomInfoTags".toList) ≠ L.key [infoStg, n] := by
      intro h
      have := kind_of_key h
      rw [kind_game (by decide), kind_info] at this
      exact gkind_ne_info _ _ this
    have e3 : L.key [infoStg] ≠ L.key [infoStg, n] := by simp [CfbLib.key]
    rw [Cfb.get_cons (by simp), if_neg e1, Cfb.get_cons (by simp), if_neg e2, Cfb.get_cons (by simp),
      if_neg e3, Cfb.get_nil (by simp)]

theorem bytesIf_stream {c : Cfb} {p : Path} {b : Bytes} (h : c.get L p = some (.stream b)) :
    bytesIf L c p = .ok b := by
  unfold bytesIf Cfb.exists Cfb.openStream; rw [h]; rfl

theorem bytesIf_none {c : Cfb} {p : Path} (h : c.get L p = none) : bytesIf L c p = .ok [] := by
  unfold bytesIf Cfb.exists; rw [h]; rfl

theorem hashBiffIf_stream {c : Cfb} {p : Path} {b : Bytes} (h : c.get L p = some (.stream b)) :
    hashBiffIf L c p = hashBiff b := by
  unfold hashBiffIf Cfb.exists Cfb.openStream; rw [h]; rfl

theorem TableBytes.bytesIf_info (t : TableBytes) (n : Str) :
    bytesIf L t.entries [infoStg, n] = .ok (infoValue L t.info n) := by
  have h := t.get_info (L := L) n
  unfold infoValue
  cases hf : t.info.find? fun x => L.fold x.1 == L.fold n with
  | none => rw [hf] at h; exact bytesIf_none h
  | some x => rw [hf] at h; exact bytesIf_stream h

theorem concatM_flatMap {α : Type} {f : α → Res Bytes} {g : α → Bytes} {l : List α}
    (h : ∀ x ∈ l, f x = .ok (g x)) : concatM f l = .ok (l.flatMap g) := by
  induction l with
  | nil => rfl
  | cons x xs ih =>
    unfold concatM
    rw [h x (by simp), ih fun y hy => h y (by simp [hy])]; rfl

theorem concatM_map {α β : Type} (f : β → Res Bytes) (h : α → β) (l : List α) :
    concatM f (l.map h) = concatM (fun x => f (h x)) l := by
  induction l with
  | nil => rfl
  | cons x xs ih =>
    rw [List.map_cons]
    unfold concatM
    rw [ih]

theorem flatMap_range {α : Type} (H : α → Bytes) (l : List α) :
    (List.range l.length).flatMap (fun i => match l[i]? with | some x => H x | none => []) = l.flatMap H := by
  induction l with
  | nil => rfl
  | cons x xs ih =>
    rw [List.length_cons, List.range_succ_eq_map, List.flatMap_cons, List.flatMap_cons, List.flatMap_map, ← ih]
    simp

/-- What the checksum of a table is computed from: the version, ten of the table info streams, the
records of the custom info tags, the value of each tag, the records of the game data and those of every
collection; of a record the tag and the data. -/
def VPX.hashInput (L : CfbLib) (s : VPX) : Bytes :=
  "Visual Pinball".toList.map (fun ch => UInt8.ofNat ch.toNat)
    ++ s.version.bytes
    ++ hashedInfo.flatMap (infoValue L s.info.streams)
    ++ (hashOf (CustomInfoTags.ops s.custominfotags) ++ tagBytes ENDB
      ++ s.custominfotags.flatMap (infoValue L s.info.streams))
    ++ (hashOf (s.gamedata.ops s.version.number) ++ tagBytes ENDB)
    ++ s.collections.flatMap (fun c => hashOf c.ops ++ tagBytes ENDB)

theorem Encodes.get {α : Type} {enc : α → Res Bytes} {xs : List α} {bs : List Bytes}
    (h : Encodes enc xs bs) {k : Nat} {b : Bytes} (hk : bs[k]? = some b) :
    ∃ x, xs[k]? = some x ∧ enc x = .ok b := by
  induction xs generalizing bs k with
  | nil =>
    cases bs with
    | nil => simp at hk
    | cons b bs => exact h.elim
  | cons x xs ih =>
    cases bs with
    | nil => exact h.elim
    | cons b' bs =>
      cases k with
      | zero => simp at hk; subst hk; exact ⟨x, by simp, h.1⟩
      | succ k => exact ih h.2 (by simpa using hk)

theorem TableBytes.mem_coll (t : TableBytes) {k : Nat} {b : Bytes} (h : t.collections[k]? = some b) :
    (itemPath "Collection".toList k, Entry.stream b) ∈ t.entries := by
  have := blockEntries_mem (name := "Collection".toList) (i := 0) h
  rw [Nat.zero_add] at this
  unfold TableBytes.entries
  exact List.mem_append_right _ this

theorem TableBytes.macInput_ok {E : Env} {s : VPX} (h : s.WF E) {t : TableBytes} (ht : t.Of E s) :
    macInput E.toCfbLib t.entries = .ok (s.hashInput E.toCfbLib) := by
  obtain ⟨-, hst, hnone⟩ := VPX.writeParts_ok h ht
  have hd := hst.distinct
  have gv : Cfb.get E.toCfbLib t.entries (gamePath "Version".toList) = some (.stream t.version) :=
    Cfb.get_of_mem hd (by rw [TableBytes.entries_eq]; unfold TableBytes.tail; simp) (by simp [gamePath])
  have gg : Cfb.get E.toCfbLib t.entries (gamePath "GameData".toList) = some (.stream t.gamedata) :=
    Cfb.get_of_mem hd (by rw [TableBytes.entries_eq]; unfold TableBytes.tail; simp) (by simp [gamePath])
  have gc : Cfb.get E.toCfbLib t.entries (gamePath "CustomInfoTags".toList) = some (.stream t.tags) :=
    Cfb.get_of_mem hd (by rw [TableBytes.entries_eq]; simp) (by simp [gamePath])
  have htext : ∀ x ∈ s.custominfotags, Text x := fun x hx => (h.tags x hx).1
  have e1 := bytesIf_stream gv
  have e2 : concatM (fun n => bytesIf E.toCfbLib t.entries [infoStg, n]) hashedInfo
      = .ok (hashedInfo.flatMap (infoValue E.toCfbLib t.info)) :=
    concatM_flatMap fun n _ => t.bytesIf_info n
  have e3 : hashCustom E.toCfbLib t.entries = .ok (hashOf (CustomInfoTags.ops s.custominfotags) ++ tagBytes ENDB
      ++ s.custominfotags.flatMap (infoValue E.toCfbLib t.info)) := by
    unfold hashCustom Cfb.exists Cfb.openStream
    rw [gc]
    simp only [Option.isSome_some, if_true]
    refine Res.bind_ok rfl ?_
    rw [ht.tags]
    refine Res.bind_ok (hashBiff_ops (CustomInfoTags.reads htext).good (CustomInfoTags.hashed _)) ?_
    refine Res.bind_ok (custNames_tags htext) ?_
    refine Res.bind_ok (concatM_flatMap (g := infoValue E.toCfbLib t.info) ?_) rfl
    intro x hx
    obtain ⟨h1, h2, h3, h4⟩ := (h.tags x hx).2
    have hp := pathOf_info h2 h1 h3 h4
    have := t.bytesIf_info (L := E.toCfbLib) x
    unfold bytesIfAt Cfb.existsAt Cfb.openAt
    rw [hp]
    exact this
  have e4 : hashBiffIf E.toCfbLib t.entries (gamePath "GameData".toList)
      = .ok (hashOf (s.gamedata.ops s.version.number) ++ tagBytes ENDB) := by
    rw [hashBiffIf_stream gg, ht.gamedata]
    exact hashBiff_ops (GameData.good h.gamedata.1 h.gamedata.2.1) (GameData.hashed _ _)
  have hlen := ht.collections.length
  have e5 : collectionPaths E.toCfbLib t.entries
      = (List.range s.collections.length).map (itemPath "Collection".toList) := by
    refine collectionPaths_of ?_ ?_
    · intro i hi
      have hb : t.collections[i]? = some (t.collections[i]'(by omega)) := by
        rw [List.getElem?_eq_getElem]
      have := Cfb.get_of_mem hd (t.mem_coll hb) (coll_ne i)
      unfold Cfb.exists; rw [this]; rfl
    · unfold Cfb.exists; rw [hnone _ (Nat.le_refl _)]; rfl
  have e6 : concatM (hashBiffIf E.toCfbLib t.entries) (collectionPaths E.toCfbLib t.entries)
      = .ok (s.collections.flatMap fun c => hashOf c.ops ++ tagBytes ENDB) := by
    rw [e5, concatM_map, ← flatMap_range]
    refine concatM_flatMap ?_
    intro i hi
    have hi' : i < s.collections.length := by simpa using hi
    have hb : t.collections[i]? = some (t.collections[i]'(by omega)) := by
      rw [List.getElem?_eq_getElem]
    rw [hashBiffIf_stream (Cfb.get_of_mem hd (t.mem_coll hb) (coll_ne i))]
    obtain ⟨x, hx, hw⟩ := ht.collections.get hb
    have hwf := h.collections x (List.mem_of_getElem? hx)
    have hg := (Collection.reads hwf).good
    have hw' : Collection.write x = .ok (bytesOf x.ops ++ endbBytes) := writeBiff_ok _ hg
    rw [hw'] at hw
    have hw2 := Except.ok.inj hw
    rw [← hw2, hx]
    exact hashBiff_ops hg (Collection.hashed x)
  unfold macInput
  refine Res.bind_ok e1 ?_
  refine Res.bind_ok e2 ?_
  refine Res.bind_ok e3 ?_
  refine Res.bind_ok e4 ?_
  refine Res.bind_ok e6 ?_
  rw [ht.version, ht.info]
  rfl

end Vpin
