import Verif.Spec.Handle
import Verif.Props.Webp
import Verif.Props.Folder
import Verif.Props.QuantizeSave
/-
C94: an open table file.
-/
namespace Vpin
variable {E : Env} {P : PictureLib}

/-! ### Saving game data -/

theorem get_none_keys {L : CfbLib} {c : Cfb} {p : Path} (h : c.get L p = none) : ∀ e ∈ c, L.key e.1 ≠ L.key p := by
  have hp : p ≠ [] := by
    rintro rfl
    rw [Cfb.get_root] at h; cases h
  unfold Cfb.get at h
  rw [if_neg hp, Option.map_eq_none_iff, List.find?_eq_none] at h
  intro e he hk
  exact h e he (by simpa using hk)

theorem get_none_of_keys {L : CfbLib} {c : Cfb} {p : Path} (hp : p ≠ []) (h : ∀ e ∈ c, L.key e.1 ≠ L.key p) :
    c.get L p = none := by
  unfold Cfb.get
  rw [if_neg hp, Option.map_eq_none_iff, List.find?_eq_none]
  intro e he hk
  exact h e he (by simpa using hk)

/-- creating a stream twice leaves what the second call wrote -/
theorem createStream_again {L : CfbLib} {c c1 : Cfb} {p : Path} {a : Bytes} (h : c.createStream L p a = .ok c1) (b : Bytes) :
    c1.createStream L p b = c.createStream L p b := by
  have hg := Cfb.get_createStream h p
  rw [if_pos rfl] at hg
  unfold Cfb.createStream at h ⊢
  rw [hg]
  dsimp only
  split at h
  · cases h
  · next old ho =>
    cases h
    congr 1
    rw [List.map_map]
    refine List.map_congr_left fun e _ => ?_
    dsimp only [Function.comp]
    split <;> rfl
  · next hn =>
    have hadd : c.add L p (.stream b) = .ok (c ++ [(p, .stream b)]) := by
      unfold Cfb.add at h ⊢
      split at h
      · cases h
      · next name hl =>
        split at h
        · next hc => rw [if_pos hc]
        · cases h
    obtain ⟨-, rfl, -⟩ := Cfb.add_inv h
    rw [hadd, List.map_append, List.map_cons, List.map_nil, if_pos rfl]
    congr 2
    have : ∀ e ∈ c, (if L.key e.1 = L.key p then (e.1, Entry.stream b) else e) = e := fun e he => if_neg (get_none_keys hn e he)
    rw [List.map_congr_left this, List.map_id']

/-- whether a stream can be created does not depend on its content -/
theorem createStream_any {L : CfbLib} {c c1 : Cfb} {p : Path} {a : Bytes} (h : c.createStream L p a = .ok c1) (b : Bytes) :
    ∃ c2, c.createStream L p b = .ok c2 := by
  rw [← createStream_again h b]
  have hg := Cfb.get_createStream h p
  rw [if_pos rfl] at hg
  exact Cfb.createStream_replace b hg

/-- the order of emptying and encoding makes no difference to a call that succeeds -/
theorem saveGameData_ok (g : GameData) (v : Version) (c c' : Cfb) :
    saveGameData E g v c = (.ok (), c') ↔ writeGameData E g v c = .ok c' := by
  unfold saveGameData writeGameData
  constructor
  · intro h
    split at h
    · cases h
    · next c1 h1 =>
      split at h
      · cases h
      · next data hd =>
        split at h
        · cases h
        · next c2 h2 =>
          cases h
          rw [Res.thenOk hd, ← createStream_again h1]
          exact h2
  · intro h
    obtain ⟨data, hd, h⟩ := Res.unbind h
    obtain ⟨c1, h1⟩ := createStream_any h []
    rw [h1]
    dsimp only
    rw [hd]
    dsimp only
    rw [createStream_again h1, h]

theorem handleWrite_ok {g : GameData} {v : Version} {c c' : Cfb} (hv : readVersion E c = .ok v)
    (h : (writeGameData E g v c >>= refreshMac E) = .ok c') : handleWrite E g c = (.ok (), c') := by
  obtain ⟨c1, h1, h2⟩ := Res.unbind h
  unfold handleWrite
  rw [hv]
  dsimp only
  rw [(saveGameData_ok g v c c1).2 h1]
  dsimp only
  unfold saveMac
  rw [h2]

/-! ### Lists of streams -/

section Lists
variable {α : Type} {name : Str} {dec : Bytes → Res α} {c c' : Cfb} {l : List α}

theorem ListIn.congr (h : ListIn E c name dec l)
    (hg : ∀ i, c'.get E.toCfbLib (itemPath name i) = c.get E.toCfbLib (itemPath name i)) : ListIn E c' name dec l :=
  ⟨fun i x hx => by
    obtain ⟨bs, h1, h2⟩ := h.each i x hx
    refine ⟨bs, ?_, h2⟩
    unfold Cfb.openStream at h1 ⊢
    rw [hg]; exact h1, fun i hi => by rw [hg]; exact h.noMore i hi⟩

theorem ListIn.read (h : ListIn E c name dec l) (n : Nat) : ∀ i, i + n ≤ l.length →
    readFrom E name dec i n c = .ok ((l.drop i).take n) := by
  induction n with
  | zero => intro i _; rw [List.take_zero]; rfl
  | succ n ih =>
    intro i hi
    have hlt : i < l.length := by omega
    obtain ⟨bs, h1, h2⟩ := h.each i l[i] (List.getElem?_eq_getElem hlt)
    rw [List.drop_eq_getElem_cons hlt, List.take_succ_cons]
    exact readFrom_cons h1 h2 (ih (i + 1) (by omega))

theorem ListIn.missing (h : ListIn E c name dec l) (n : Nat) : ∀ i, i ≤ l.length → l.length < i + n →
    readFrom E name dec i n c = .error .io := by
  induction n with
  | zero => intro i _ _; omega
  | succ n ih =>
    intro i hi hn
    by_cases hlt : i < l.length
    · obtain ⟨bs, h1, h2⟩ := h.each i l[i] (List.getElem?_eq_getElem hlt)
      unfold readFrom
      rw [Res.thenOk h1, Res.thenOk h2, ih (i + 1) (by omega) (by omega)]
      rfl
    · unfold readFrom Cfb.openStream
      rw [h.noMore i (by omega)]
      rfl

/-- the other way round -/
theorem ListIn.of_read (h : readFrom E name dec 0 l.length c = .ok l)
    (hn : ∀ i, l.length ≤ i → c.get E.toCfbLib (itemPath name i) = none) : ListIn E c name dec l := by
  refine ⟨?_, hn⟩
  have gen : ∀ (n : Nat) (i : Nat) (xs : List α), readFrom E name dec i n c = .ok xs → ∀ (k : Nat) x, xs[k]? = some x →
      ∃ bs, c.openStream E.toCfbLib (itemPath name (i + k)) = .ok bs ∧ dec bs = .ok x := by
    intro n
    induction n with
    | zero => intro i xs h k x hx; cases h; cases hx
    | succ n ih =>
      intro i xs h k x hx
      obtain ⟨b, y, rest, h1, h2, h3, rfl⟩ := readFrom_head h
      cases k with
      | zero => cases hx; exact ⟨b, h1, h2⟩
      | succ k =>
        have := ih (i + 1) rest h3 k x (by simpa using hx)
        rwa [show i + 1 + k = i + (k + 1) by omega] at this
  intro i x hx
  have := gen _ 0 l h i x hx
  rwa [Nat.zero_add] at this

theorem ListIn.firstOf (h : ListIn E c name dec l) (reply : List α → Reply) (count : UInt32) :
    FirstOf reply count l (.of reply (readFrom E name dec 0 count.toNat c)) := by
  by_cases hc : count.toNat ≤ l.length
  · rw [h.read count.toNat 0 (by omega), List.drop_zero]
    exact .there hc
  · rw [h.missing count.toNat 0 (by omega) (by omega)]
    exact .missing (by omega)

end Lists

/-! ### Written tables -/

theorem item_absent {t : TableBytes} {mac : Bytes} {name : Str} {bs : List Bytes} {i : Nat} (hs : Stem name)
    (hi : bs.length ≤ i)
    (hb : ∀ e ∈ t.file mac, E.kind e.1 = gkind name → e ∈ blockEntries name 0 bs) :
    Cfb.get E.toCfbLib (t.file mac) (itemPath name i) = none := by
  refine get_none_of_keys (by simp [itemPath, gamePath]) ?_
  intro e he hk
  have hm := hb e he (by rw [kind_of_key hk, kind_item hs]; rfl)
  obtain ⟨k, b, hkb, rfl⟩ := blockEntries_inv hm
  have := key_item_inj (s := name) (by exact hs.1) hk
  have hlt : k < bs.length := (List.getElem?_eq_some_iff.1 hkb).1
  omega

/-- the entries of a written table, by kind -/
theorem TableBytes.file_kinds (t : TableBytes) (mac : Bytes) (e : Path × Entry) (he : e ∈ t.file mac) :
    E.kind e.1 = [gameStg.map asciiUpper] ∨ (∃ n, E.kind e.1 = infoStg.map asciiUpper :: n) ∨
    (∃ n ∈ ["CustomInfoTags".toList, "Version".toList, "GameData".toList, "MAC".toList], E.kind e.1 = gkind n) ∨
    (E.kind e.1 = gkind "GameItem".toList ∧ e ∈ blockEntries "GameItem".toList 0 t.gameitems) ∨
    (E.kind e.1 = gkind "Image".toList ∧ e ∈ blockEntries "Image".toList 0 t.images) ∨
    (E.kind e.1 = gkind "Sound".toList ∧ e ∈ blockEntries "Sound".toList 0 t.sounds) ∨
    (E.kind e.1 = gkind "Font".toList ∧ e ∈ blockEntries "Font".toList 0 t.fonts) ∨
    (E.kind e.1 = gkind "Collection".toList ∧ e ∈ blockEntries "Collection".toList 0 t.collections) := by
  have block : ∀ {name : Str} {l : List Bytes}, Stem name → e ∈ blockEntries name 0 l → E.kind e.1 = gkind name := by
    intro name l hs h
    obtain ⟨k, b, -, rfl⟩ := blockEntries_inv h
    exact kind_item hs _
  have plain : ∀ {name : Str} {b : Entry}, Stem name → e = (gamePath name, b) → E.kind e.1 = gkind name := by
    rintro name b hs rfl
    exact kind_game hs
  unfold TableBytes.file TableBytes.entries at he
  simp only [List.mem_append, List.mem_singleton] at he
  rcases he with (((((((((((rfl | he) | rfl) | he) | he) | he) | he) | he) | he) | he) | he) | he)
  · exact .inl kind_stg
  · exact .inr (.inr (.inl ⟨_, by simp, plain (by decide) he⟩))
  · exact .inr (.inl ⟨_, kind_infoStg⟩)
  · exact .inr (.inl (infoEntries_kind _ e he))
  · exact .inr (.inr (.inl ⟨_, by simp, plain (by decide) he⟩))
  · exact .inr (.inr (.inl ⟨_, by simp, plain (by decide) he⟩))
  · exact .inr (.inr (.inr (.inl ⟨block (by decide) he, he⟩)))
  · exact .inr (.inr (.inr (.inr (.inl ⟨block (by decide) he, he⟩))))
  · exact .inr (.inr (.inr (.inr (.inr (.inl ⟨block (by decide) he, he⟩)))))
  · exact .inr (.inr (.inr (.inr (.inr (.inr (.inl ⟨block (by decide) he, he⟩))))))
  · exact .inr (.inr (.inr (.inr (.inr (.inr (.inr ⟨block (by decide) he, he⟩))))))
  · exact .inr (.inr (.inl ⟨_, by simp, plain (by decide) he⟩))

/-- **C94.** A table that can be stored is in the file after it is written. -/
theorem C94_written (E : Env) (s : VPX) (h : s.WF E) : ∃ c, s.write E = .ok c ∧ InFile E c s := by
  obtain ⟨t, ht, d1, d2, d3, d4, d5⟩ := TableBytes.exists_of h
  have hw := VPX.write_file h ht
  obtain ⟨c, hw', htf⟩ := VPX.write_tableFile h
  rw [hw] at hw'
  cases hw'
  obtain ⟨c, hw', hst⟩ := Stored.written h
  rw [hw] at hw'
  cases hw'
  refine ⟨_, hw, ?_⟩
  generalize hmac : E.md2 (s.hashInput E.toCfbLib) = mac at *
  obtain ⟨s', hr, hs⟩ := hst.readable
  have kinds := t.file_kinds (E := E) mac
  unfold VPX.read at hr
  obtain ⟨tags, r1, hr⟩ := Res.bind_inv hr
  obtain ⟨info, r2, hr⟩ := Res.bind_inv hr
  obtain ⟨version, r3, hr⟩ := Res.bind_inv hr
  obtain ⟨gd, r4, hr⟩ := Res.bind_inv hr
  obtain ⟨items, r5, hr⟩ := Res.bind_inv hr
  obtain ⟨images, r6, hr⟩ := Res.bind_inv hr
  obtain ⟨sounds, r7, hr⟩ := Res.bind_inv hr
  obtain ⟨fonts, r8, hr⟩ := Res.bind_inv hr
  obtain ⟨colls, r9, hr⟩ := Res.bind_inv hr
  cases hr
  obtain ⟨e1, e2, e3, e4, e5, e6, e7, e8, e9⟩ := hs
  dsimp only at e1 e2 e3 e4 e5 e6 e7 e8 e9
  subst e1 e3 e4 e5 e6 e7 e8 e9
  refine ⟨htf, hst.checked, r1, ⟨info, r2, e2⟩, ?_, ?_, ?_, ?_, ?_⟩
  · rw [h.counts.gameitems] at r5
    refine .of_read r5 fun i hi => item_absent (by decide) (by rw [ht.gameitems.length]; exact hi) ?_
    intro e he hk
    rcases kinds e he with h | ⟨n, h⟩ | ⟨n, hn, h⟩ | h | h | h | h | h
    · exact absurd (hk.symm.trans h) (by decide)
    · exact absurd (hk.symm.trans h) (gkind_ne_info _ _)
    · simp only [List.mem_cons, List.not_mem_nil, or_false] at hn
      rcases hn with rfl | rfl | rfl | rfl <;> exact absurd (hk.symm.trans h) (by decide)
    all_goals first | exact h.2 | exact absurd (hk.symm.trans h.1) (by decide)
  · rw [h.counts.images] at r6
    refine .of_read r6 fun i hi => item_absent (by decide) (by rw [ht.images.length]; exact hi) ?_
    intro e he hk
    rcases kinds e he with h | ⟨n, h⟩ | ⟨n, hn, h⟩ | h | h | h | h | h
    · exact absurd (hk.symm.trans h) (by decide)
    · exact absurd (hk.symm.trans h) (gkind_ne_info _ _)
    · simp only [List.mem_cons, List.not_mem_nil, or_false] at hn
      rcases hn with rfl | rfl | rfl | rfl <;> exact absurd (hk.symm.trans h) (by decide)
    all_goals first | exact h.2 | exact absurd (hk.symm.trans h.1) (by decide)
  · rw [h.counts.sounds] at r7
    refine .of_read r7 fun i hi => item_absent (by decide) (by rw [ht.sounds.length]; exact hi) ?_
    intro e he hk
    rcases kinds e he with h | ⟨n, h⟩ | ⟨n, hn, h⟩ | h | h | h | h | h
    · exact absurd (hk.symm.trans h) (by decide)
    · exact absurd (hk.symm.trans h) (gkind_ne_info _ _)
    · simp only [List.mem_cons, List.not_mem_nil, or_false] at hn
      rcases hn with rfl | rfl | rfl | rfl <;> exact absurd (hk.symm.trans h) (by decide)
    all_goals first | exact h.2 | exact absurd (hk.symm.trans h.1) (by decide)
  · rw [h.counts.fonts] at r8
    refine .of_read r8 fun i hi => item_absent (by decide) (by rw [ht.fonts.length]; exact hi) ?_
    intro e he hk
    rcases kinds e he with h | ⟨n, h⟩ | ⟨n, hn, h⟩ | h | h | h | h | h
    · exact absurd (hk.symm.trans h) (by decide)
    · exact absurd (hk.symm.trans h) (gkind_ne_info _ _)
    · simp only [List.mem_cons, List.not_mem_nil, or_false] at hn
      rcases hn with rfl | rfl | rfl | rfl <;> exact absurd (hk.symm.trans h) (by decide)
    all_goals first | exact h.2 | exact absurd (hk.symm.trans h.1) (by decide)
  · rw [h.counts.collections] at r9
    refine .of_read r9 fun i hi => item_absent (by decide) (by rw [ht.collections.length]; exact hi) ?_
    intro e he hk
    rcases kinds e he with h | ⟨n, h⟩ | ⟨n, hn, h⟩ | h | h | h | h | h
    · exact absurd (hk.symm.trans h) (by decide)
    · exact absurd (hk.symm.trans h) (gkind_ne_info _ _)
    · simp only [List.mem_cons, List.not_mem_nil, or_false] at hn
      rcases hn with rfl | rfl | rfl | rfl <;> exact absurd (hk.symm.trans h) (by decide)
    all_goals first | exact h.2 | exact absurd (hk.symm.trans h.1) (by decide)

/-! ### Calls that change the game data -/

theorem InFile.update {c : Cfb} {s : VPX} (h : InFile E c s) {g : GameData} (hg : g.WF s.version.number) :
    ∃ c', handleWrite E g c = (.ok (), c') ∧ InFile E c' { s with gamedata := g } := by
  obtain ⟨c', hw, hf, ho, hv⟩ := h.file.update hg
  have hk : KeepsRest E c c' := .of_write hw
  have ne := fun (i : Nat) => C25_which_streams E i []
  have item : ∀ name, name ∈ ["GameItem".toList, "Image".toList, "Sound".toList, "Font".toList, "Collection".toList] →
      ∀ i, c'.get E.toCfbLib (itemPath name i) = c.get E.toCfbLib (itemPath name i) := by
    intro name hn i
    refine ho _ ?_ ?_
    · refine (ne i _ ?_).1
      simp only [List.mem_cons, List.not_mem_nil, or_false] at hn
      rcases hn with rfl | rfl | rfl | rfl | rfl <;> simp only [List.mem_cons, true_or, or_true]
    · refine (ne i _ ?_).2
      simp only [List.mem_cons, List.not_mem_nil, or_false] at hn
      rcases hn with rfl | rfl | rfl | rfl | rfl <;> simp only [List.mem_cons, true_or, or_true]
  have ht : readCustomInfoTags E c' = readCustomInfoTags E c := by
    have : c'.get E.toCfbLib (gamePath "CustomInfoTags".toList)
        = c.get E.toCfbLib (gamePath "CustomInfoTags".toList) :=
      ho _ (ne 0 _ (by simp only [List.mem_cons, true_or, or_true])).1
        (ne 0 _ (by simp only [List.mem_cons, true_or, or_true])).2
    unfold readCustomInfoTags
    rw [this]
  have hi : TableInfo.read E.toCfbLib c' = TableInfo.read E.toCfbLib c := by
    unfold TableInfo.read; rw [hk.children]
  refine ⟨c', handleWrite_ok h.file.version hw, hf, hv, ht.trans h.tags, ?_, h.gameitems.congr (item _ (by decide)),
    h.images.congr (item _ (by decide)), h.sounds.congr (item _ (by decide)), h.fonts.congr (item _ (by decide)),
    h.collections.congr (item _ (by decide))⟩
  obtain ⟨t, h1, h2⟩ := h.info
  exact ⟨t, hi.trans h1, h2⟩

theorem InFile.count {c : Cfb} {s : VPX} (h : InFile E c s) {want : Bool} (hl : s.lockedNow ≠ want) :
    ∃ c', handleCount E s.gamedata c = (.ok true, c') ∧ InFile E c' (s.withLock want) := by
  obtain ⟨c', h1, h2⟩ := h.update (g := { s.gamedata with locked := some (s.gamedata.lockCount + 1) })
    (GameData.locked_wf h.file.storable _)
  refine ⟨c', ?_, ?_⟩
  · unfold handleCount
    rw [h1]
  · unfold VPX.withLock
    rw [if_neg hl]
    exact h2

theorem InFile.lock {c : Cfb} {s : VPX} (h : InFile E c s) :
    ∃ c', handleLock E c = (.ok (!s.lockedNow), c') ∧ InFile E c' (s.withLock true) := by
  have hl := lockedNow_eq s
  unfold handleLock
  rw [h.file.file]
  dsimp only
  cases hb : s.lockedNow with
  | true =>
    rw [if_pos (by rw [hl]; exact hb)]
    refine ⟨c, rfl, ?_⟩
    unfold VPX.withLock
    rw [if_pos hb]; exact h
  | false =>
    rw [if_neg (by rw [hl, hb]; decide)]
    exact h.count (by rw [hb]; decide)

theorem InFile.unlock {c : Cfb} {s : VPX} (h : InFile E c s) :
    ∃ c', handleUnlock E c = (.ok s.lockedNow, c') ∧ InFile E c' (s.withLock false) := by
  have hl := lockedNow_eq s
  have he : (s.gamedata.lockCount &&& 1 == 0) = !s.lockedNow := by
    rw [← hl]; simp [bne]
  unfold handleUnlock
  rw [h.file.file]
  dsimp only
  cases hb : s.lockedNow with
  | false =>
    rw [if_pos (by rw [he, hb]; rfl)]
    refine ⟨c, rfl, ?_⟩
    unfold VPX.withLock
    rw [if_pos hb]; exact h
  | true =>
    rw [if_neg (by rw [he, hb]; decide)]
    exact h.count (by rw [hb]; decide)

/-! ### Converting images -/

/-- one step of `webpFrom` -/
theorem webpFrom_step (i : Nat) (c : Cfb) :
    (∃ e, ∀ n, webpFrom E P i (n + 1) c = (.error e, c)) ∨
    (∃ (rep : List Conversion) (c1 : Cfb), ∀ n, webpFrom E P i (n + 1) c =
      ((webpFrom E P (i + 1) n c1).1.map (rep ++ ·), (webpFrom E P (i + 1) n c1).2)) := by
  have hs : ∀ n, webpFrom E P i (n + 1) c = _ := fun n => rfl
  cases h1 : (do ImageData.read (← c.openStream E.toCfbLib (itemPath "Image".toList i)) : Res ImageData) with
  | error e => exact .inl ⟨e, fun n => by unfold webpFrom; rw [h1]⟩
  | ok im =>
    cases h2 : convertImage P im with
    | error e => exact .inl ⟨e, fun n => by unfold webpFrom; rw [h1]; dsimp only; rw [h2]⟩
    | ok r =>
      obtain ⟨new, report⟩ := r
      cases h3 : replaceImage E i new c with
      | error e => exact .inl ⟨e, fun n => by unfold webpFrom; rw [h1]; dsimp only; rw [h2]; dsimp only; rw [h3]⟩
      | ok c1 =>
        refine .inr ⟨report.toList, c1, fun n => ?_⟩
        conv => lhs; unfold webpFrom
        rw [h1]; dsimp only; rw [h2]; dsimp only; rw [h3]
        try rfl

theorem webpFrom_split (m n : Nat) : ∀ i c, webpFrom E P i (n + m) c =
    (match (webpFrom E P i n c).1 with
      | .error e => (.error e, (webpFrom E P i n c).2)
      | .ok l => ((webpFrom E P (i + n) m (webpFrom E P i n c).2).1.map (l ++ ·),
          (webpFrom E P (i + n) m (webpFrom E P i n c).2).2)) := by
  induction n with
  | zero =>
    intro i c
    rw [Nat.zero_add]
    dsimp only [webpFrom, Nat.add_zero]
    cases hh : webpFrom E P i m c with
    | mk a b => cases a <;> rfl
  | succ n ih =>
    intro i c
    rw [show n + 1 + m = (n + m) + 1 by omega, show i + (n + 1) = i + 1 + n by omega]
    rcases webpFrom_step i c with ⟨e, h⟩ | ⟨rep, c1, h⟩
    · rw [h, h]
    · rw [h, h, ih (i + 1) c1]
      cases h1 : (webpFrom E P (i + 1) n c1).1 with
      | error e => rfl
      | ok l =>
        dsimp only [Except.map]
        cases h2 : (webpFrom E P (i + 1 + n) m (webpFrom E P (i + 1) n c1).2).1 with
        | error e => rfl
        | ok l2 => dsimp only; rw [List.append_assoc]

theorem ImageWrites.tableFile {lo hi : Nat} {c c' : Cfb} (h : ImageWrites E lo hi c c') {v : Version} {g : GameData}
    (hf : TableFile E c v g) : TableFile E c' v g := by
  have gm : c'.get E.toCfbLib macPath = c.get E.toCfbLib macPath := h.get_kind (by rw [kind_mac]; decide)
  have gs : c'.get E.toCfbLib [gameStg] = c.get E.toCfbLib [gameStg] := h.get_kind (by rw [kind_stg]; decide)
  have gt : c'.get E.toCfbLib (gamePath "CustomInfoTags".toList) = c.get E.toCfbLib (gamePath "CustomInfoTags".toList) :=
    h.get_kind (by rw [kind_game (by decide)]; decide)
  refine ⟨?_, ?_, hf.storable, ?_, ?_, ?_⟩
  · unfold readVersion
    rw [h.openStream (by rw [kind_game (by decide)]; decide)]
    exact hf.version
  · unfold readGameData
    rw [h.openStream (by rw [kind_game (by decide)]; decide)]
    exact hf.gamedata
  · rw [h.mac hf.tags]; exact hf.hashable
  · rw [gm, gs]; exact hf.slot
  · rw [tagNames_congr gt]; exact hf.tags

theorem InFile.images_written {lo hi : Nat} {c c' : Cfb} {s : VPX} (h : InFile E c s) (hw : ImageWrites E lo hi c c')
    {images : List ImageData} (hi : ListIn E c' "Image".toList ImageData.read images) :
    InFile E c' { s with images := images } := by
  have item : ∀ name, Stem name → name.map asciiUpper ≠ "Image".toList.map asciiUpper → ∀ i,
      c'.get E.toCfbLib (itemPath name i) = c.get E.toCfbLib (itemPath name i) := by
    intro name hs hn i
    refine hw.get_kind ?_
    rw [kind_item hs]
    intro he
    simp only [gkind, List.cons.injEq, and_true, true_and] at he
    exact hn he
  refine ⟨hw.tableFile h.file, ?_, ?_, ?_, h.gameitems.congr (item _ (by decide) (by decide)), hi,
    h.sounds.congr (item _ (by decide) (by decide)), h.fonts.congr (item _ (by decide) (by decide)),
    h.collections.congr (item _ (by decide) (by decide))⟩
  · have := h.checked
    unfold verify readMac at this ⊢
    rw [hw.mac h.file.tags, hw.openStream (by rw [kind_game (by decide)]; decide)]
    exact this
  · unfold readCustomInfoTags
    rw [hw.get_kind (by rw [kind_game (by decide)]; decide)]
    exact h.tags
  · unfold TableInfo.read
    rw [hw.children]
    exact h.info

/-- the images after the first ones were rewritten -/
theorem ListIn.rewritten {n : Nat} {c c' : Cfb} {l ys : List ImageData} (h : ListIn E c "Image".toList ImageData.read l)
    (hn : n ≤ l.length) (hw : ImageWrites E 0 n c c')
    (hr : readFrom E "Image".toList ImageData.read 0 n c' = .ok ys) (hl : ys.length = n) :
    ListIn E c' "Image".toList ImageData.read (ys ++ l.drop n) := by
  have later : ∀ i, n ≤ i → c'.get E.toCfbLib (imageStream i) = c.get E.toCfbLib (imageStream i) := fun i hi =>
    hw.get fun k _ hk => image_key (by omega)
  have hlen : (ys ++ l.drop n).length = l.length := by simp [hl]; omega
  refine ListIn.of_read ?_ fun i hi => ?_
  · rw [hlen]
    have hrest : readFrom E "Image".toList ImageData.read n (l.length - n) c' = .ok (l.drop n) := by
      rw [readFrom_range (c := c) _ n fun k hk _ => by unfold Cfb.openStream; rw [later k hk]]
      rw [h.read _ n (by omega), List.take_of_length_le (by simp)]
    have app : ∀ (m : Nat) (i : Nat) (xs zs : List ImageData), readFrom E "Image".toList ImageData.read i m c' = .ok xs →
        readFrom E "Image".toList ImageData.read (i + m) (l.length - n) c' = .ok zs →
        readFrom E "Image".toList ImageData.read i (m + (l.length - n)) c' = .ok (xs ++ zs) := by
      intro m
      induction m with
      | zero => intro i xs zs h1 h2; cases h1; simpa using h2
      | succ m ih =>
        intro i xs zs h1 h2
        obtain ⟨b, y, rest, a1, a2, a3, rfl⟩ := readFrom_head h1
        rw [show m + 1 + (l.length - n) = (m + (l.length - n)) + 1 by omega, List.cons_append]
        exact readFrom_cons a1 a2 (ih (i + 1) rest zs a3 (by rwa [show i + 1 + m = i + (m + 1) by omega]))
    have := app n 0 ys (l.drop n) hr (by rwa [Nat.zero_add])
    rwa [show n + (l.length - n) = l.length by omega] at this
  · rw [hlen] at hi
    rw [later i (by omega)]
    exact h.noMore i hi

theorem WebpUpTo.extend {L : PictureLaws P} {k n : Nat} {l ys : List ImageData} (h : WebpUpTo P L k (l.take n) ys)
    (hn : n ≤ l.length) (hk : k ≤ n) : WebpUpTo P L k l (ys ++ l.drop n) := by
  have hl : ys.length = n := by rw [h.1]; simp [hn]
  refine ⟨by simp [hl]; omega, ?_⟩
  intro i o x ho hx
  by_cases hi : i < n
  · rw [List.getElem?_append_left (by omega)] at hx
    exact h.2 i o x (by rw [List.getElem?_take_of_lt hi]; exact ho) hx
  · rw [List.getElem?_append_right (by omega), List.getElem?_drop, show n + (i - ys.length) = i by omega, ho] at hx
    cases hx
    exact ⟨fun h => absurd h (by omega), fun _ => rfl⟩

theorem InFile.webp (L : PictureLaws P) {c : Cfb} {s : VPX} (h : InFile E c s)
    (ha : HandleCall.imagesToWebp.Allowed P s) : ∃ reply s', HandleCall.imagesToWebp.Expects P L s reply s' ∧
      (HandleCall.imagesToWebp.run E P c).1 = reply ∧ InFile E (HandleCall.imagesToWebp.run E P c).2 s' := by
  have hrun : HandleCall.imagesToWebp.run E P c =
      (.of .converted (webpFrom E P 0 s.gamedata.images_size.toNat c).1,
        (webpFrom E P 0 s.gamedata.images_size.toNat c).2) := by
    dsimp only [HandleCall.run]
    unfold imagesToWebp
    rw [h.file.file]
  rw [hrun]
  change ∀ im ∈ s.images.take s.gamedata.images_size.toNat, ReadyForWebp P im at ha
  generalize hcount : s.gamedata.images_size.toNat = count at ha ⊢
  have htake : s.images.take (min count s.images.length) = s.images.take count := by
    rw [List.take_eq_take_iff]; omega
  generalize hn : min count s.images.length = n at htake
  have hnl : n ≤ s.images.length := by omega
  have hread : readFrom E "Image".toList ImageData.read 0 n c = .ok (s.images.take n) := by
    have := h.images.read n 0 (by omega)
    rwa [List.drop_zero] at this
  obtain ⟨ys, k, r1, r2, r3, r4, r5, r6⟩ := webpFrom_main (P := P) L n 0 c _ hread (by rw [htake]; exact ha)
  have hlen : (s.images.take n).length = n := by simp [hnl]
  rw [hlen] at r3 r4 r5
  have hyl : ys.length = n := by rw [r2.1, hlen]
  have hw : ImageWrites E 0 n c (webpFrom E P 0 n c).2 := by
    have := webpFrom_writes (E := E) (P := P) n 0 c
    rwa [Nat.zero_add] at this
  have hin : InFile E (webpFrom E P 0 n c).2 { s with images := ys ++ s.images.drop n } :=
    h.images_written hw (h.images.rewritten hnl hw r1 hyl)
  have hup : WebpUpTo P L k s.images (ys ++ s.images.drop n) := r2.extend hnl r3
  have hsplit := webpFrom_split (E := E) (P := P) (count - n) n 0 c
  rw [show n + (count - n) = count by omega, Nat.zero_add] at hsplit
  cases h1 : (webpFrom E P 0 n c).1 with
  | error e =>
    rw [h1] at hsplit
    dsimp only at hsplit
    rw [hsplit]
    refine ⟨_, _, .imagesToWebpStops _ k e (by rw [hcount]; have := r5 e h1; omega) hup ?_, rfl, hin⟩
    intro hcan
    rw [hcount, ← htake] at hcan
    obtain ⟨conv, hc⟩ := r6 hcan
    rw [h1] at hc; cases hc
  | ok l =>
    obtain ⟨hk, hrep⟩ := r4 l h1
    rw [h1] at hsplit
    dsimp only at hsplit
    by_cases hle : count ≤ s.images.length
    · have : count - n = 0 := by omega
      rw [this] at hsplit
      have hz : webpFrom E P n 0 (webpFrom E P 0 n c).2 = (.ok [], (webpFrom E P 0 n c).2) := rfl
      rw [hz] at hsplit
      dsimp only [Except.map] at hsplit
      rw [List.append_nil] at hsplit
      rw [hsplit]
      refine ⟨_, _, .imagesToWebp (ys ++ s.images.drop n) l ?_ ?_, rfl, hin⟩
      · rw [hcount, show count = k by omega]; exact hup
      · rw [hcount, ← htake]; exact hrep
    · have hne : n = s.images.length := by omega
      obtain ⟨m, hm⟩ : ∃ m, count - n = m + 1 := ⟨count - n - 1, by omega⟩
      have habs : (do ImageData.read (← (webpFrom E P 0 n c).2.openStream E.toCfbLib (itemPath "Image".toList n)) :
          Res ImageData) = .error .io := by
        have := hin.images.noMore n (by simp [hyl]; omega)
        unfold Cfb.openStream
        rw [this]; rfl
      have hz : webpFrom E P n (m + 1) (webpFrom E P 0 n c).2 = (.error .io, (webpFrom E P 0 n c).2) := by
        conv => lhs; unfold webpFrom
        rw [habs]
      rw [hm, hz] at hsplit
      rw [hsplit]
      exact ⟨_, _, .imagesToWebpStops _ k .io (by rw [hcount]; omega) hup (fun _ => ⟨by omega, rfl⟩), rfl, hin⟩

/-! ### Any call, and any history of calls -/

/-- **C94** every call on an open table file answers as the table in it says, and leaves the table it should -/
theorem C94_call (E : Env) (P : PictureLib) (L : PictureLaws P) {c : Cfb} {s : VPX} (h : InFile E c s) (call : HandleCall)
    (ha : call.Allowed P s) : ∃ reply s', call.Expects P L s reply s' ∧ (call.run E P c).1 = reply ∧
      InFile E (call.run E P c).2 s' := by
  cases call with
  | readVersion => exact ⟨_, s, .readVersion, by dsimp only [HandleCall.run]; rw [h.file.version]; rfl, h⟩
  | readTableInfo =>
    obtain ⟨t, h1, h2⟩ := h.info
    exact ⟨_, s, .readTableInfo t h2, by dsimp only [HandleCall.run]; rw [h1]; rfl, h⟩
  | readGameData => exact ⟨_, s, .readGameData, by dsimp only [HandleCall.run]; rw [h.file.file]; rfl, h⟩
  | writeGameData g =>
    obtain ⟨c', h1, h2⟩ := h.update (g := g) ha
    refine ⟨_, _, .writeGameData g, ?_, ?_⟩
    · dsimp only [HandleCall.run]; rw [h1]; rfl
    · dsimp only [HandleCall.run]; rw [h1]; exact h2
  | isLocked =>
    refine ⟨_, s, .isLocked, ?_, h⟩
    dsimp only [HandleCall.run]
    rw [h.file.isLocked, lockedNow_eq]; rfl
  | lock =>
    obtain ⟨c', h1, h2⟩ := h.lock
    refine ⟨_, _, .lock, ?_, ?_⟩
    · dsimp only [HandleCall.run]; rw [h1]; rfl
    · dsimp only [HandleCall.run]; rw [h1]; exact h2
  | unlock =>
    obtain ⟨c', h1, h2⟩ := h.unlock
    refine ⟨_, _, .unlock, ?_, ?_⟩
    · dsimp only [HandleCall.run]; rw [h1]; rfl
    · dsimp only [HandleCall.run]; rw [h1]; exact h2
  | readGameItems =>
    refine ⟨_, s, .readGameItems _ (h.gameitems.firstOf _ _), ?_, h⟩
    dsimp only [HandleCall.run]; unfold handleItems; rw [h.file.file]; rfl
  | readImages =>
    refine ⟨_, s, .readImages _ (h.images.firstOf _ _), ?_, h⟩
    dsimp only [HandleCall.run]; unfold handleImages; rw [h.file.file]; rfl
  | readSounds =>
    refine ⟨_, s, .readSounds _ (h.sounds.firstOf _ _), ?_, h⟩
    dsimp only [HandleCall.run]; unfold handleSounds; rw [h.file.file, h.file.version]; rfl
  | readFonts =>
    refine ⟨_, s, .readFonts _ (h.fonts.firstOf _ _), ?_, h⟩
    dsimp only [HandleCall.run]; unfold handleFonts; rw [h.file.file]; rfl
  | readCollections =>
    refine ⟨_, s, .readCollections _ (h.collections.firstOf _ _), ?_, h⟩
    dsimp only [HandleCall.run]; unfold handleCollections; rw [h.file.file]; rfl
  | readCustomInfoTags => exact ⟨_, s, .readCustomInfoTags, by dsimp only [HandleCall.run]; rw [h.tags]; rfl, h⟩
  | imagesToWebp => exact h.webp L ha

/-- **C94** any history of calls: if each call asks for something possible of the table as it is by then, the replies are
those of the table, and the file holds the table at the end -/
theorem C94_history (E : Env) (P : PictureLib) (L : PictureLaws P) (calls : List HandleCall) : ∀ {c : Cfb} {s : VPX},
    InFile E c s →
    (∀ pre call post, calls = pre ++ call :: post → ∀ replies s', ExpectsAll P L s pre replies s' → call.Allowed P s') →
    ∃ s', ExpectsAll P L s calls (runHandle E P calls c).1 s' ∧ InFile E (runHandle E P calls c).2 s' := by
  induction calls with
  | nil => intro c s h _; exact ⟨s, .nil s, h⟩
  | cons call calls ih =>
    intro c s h ha
    obtain ⟨reply, s1, h1, h2, h3⟩ := C94_call E P L h call (ha [] call calls rfl [] s (.nil s))
    obtain ⟨s2, h4, h5⟩ := ih h3 (by
      intro pre x post hp replies s' hs
      exact ha (call :: pre) x post (by rw [hp]; rfl) (reply :: replies) s' (.cons h1 hs))
    refine ⟨s2, ?_, h5⟩
    dsimp only [runHandle]
    rw [h2]
    exact .cons h1 h4

/-- the calls that do not convert images need nothing of the table but its version, which no call changes -/
theorem Expects.version {L : PictureLaws P} {s t : VPX} {call : HandleCall} {r : Reply} (h : call.Expects P L s r t) :
    t.version = s.version := by
  cases h <;> try rfl
  all_goals (unfold VPX.withLock; split <;> rfl)

theorem ExpectsAll.version {L : PictureLaws P} {s t : VPX} {calls : List HandleCall} {rs : List Reply}
    (h : ExpectsAll P L s calls rs t) : t.version = s.version := by
  induction h with
  | nil => rfl
  | cons h _ ih => rw [ih, Expects.version h]

/-- **C94** for histories without image conversions it is enough that the game data can be stored -/
theorem C94_history_plain (E : Env) (P : PictureLib) (L : PictureLaws P) (calls : List HandleCall) {c : Cfb} {s : VPX}
    (h : InFile E c s) (hc : HandleCall.imagesToWebp ∉ calls)
    (hw : ∀ g, HandleCall.writeGameData g ∈ calls → g.WF s.version.number) :
    ∃ s', ExpectsAll P L s calls (runHandle E P calls c).1 s' ∧ InFile E (runHandle E P calls c).2 s' := by
  refine C94_history E P L calls h ?_
  intro pre call post hp replies s' hs
  have hm : call ∈ calls := by rw [hp]; simp
  cases call with
  | writeGameData g => change g.WF s'.version.number; rw [hs.version]; exact hw g hm
  | imagesToWebp => exact absurd hm hc
  | _ => trivial

/-- **C94** reading the table at once and reading its parts one by one is the same, for any file -/
theorem C94_parts (E : Env) (P : PictureLib) (c : Cfb) (s : VPX) : VPX.read E c = .ok s ↔
    ((HandleCall.readVersion.run E P c).1 = .version s.version ∧
    (HandleCall.readTableInfo.run E P c).1 = .info s.info ∧
    (HandleCall.readGameData.run E P c).1 = .gameData s.gamedata ∧
    (HandleCall.readCustomInfoTags.run E P c).1 = .tags s.custominfotags ∧
    (HandleCall.readGameItems.run E P c).1 = .gameItems s.gameitems ∧
    (HandleCall.readImages.run E P c).1 = .images s.images ∧
    (HandleCall.readSounds.run E P c).1 = .sounds s.sounds ∧
    (HandleCall.readFonts.run E P c).1 = .fonts s.fonts ∧
    (HandleCall.readCollections.run E P c).1 = .collections s.collections) := by
  dsimp only [HandleCall.run]
  have inv : ∀ {α : Type} {f : α → Reply} (_ : ∀ a b, f a = f b → a = b) (_ : ∀ a e, f a ≠ .failed e) {r : Res α} {a : α},
      Reply.of f r = f a ↔ r = .ok a := by
    intro α f hi hf r a
    cases r with
    | error e => exact ⟨fun h => absurd h.symm (hf a e), nofun⟩
    | ok b => exact ⟨fun h => by rw [hi b a h], fun h => by cases h; rfl⟩
  rw [inv (f := .version) (fun _ _ h => Reply.version.inj h) (fun _ _ h => Reply.noConfusion h),
    inv (f := .info) (fun _ _ h => Reply.info.inj h) (fun _ _ h => Reply.noConfusion h),
    inv (f := .gameData) (fun _ _ h => Reply.gameData.inj h) (fun _ _ h => Reply.noConfusion h),
    inv (f := .tags) (fun _ _ h => Reply.tags.inj h) (fun _ _ h => Reply.noConfusion h),
    inv (f := .gameItems) (fun _ _ h => Reply.gameItems.inj h) (fun _ _ h => Reply.noConfusion h),
    inv (f := .images) (fun _ _ h => Reply.images.inj h) (fun _ _ h => Reply.noConfusion h),
    inv (f := .sounds) (fun _ _ h => Reply.sounds.inj h) (fun _ _ h => Reply.noConfusion h),
    inv (f := .fonts) (fun _ _ h => Reply.fonts.inj h) (fun _ _ h => Reply.noConfusion h),
    inv (f := .collections) (fun _ _ h => Reply.collections.inj h) (fun _ _ h => Reply.noConfusion h)]
  unfold handleItems handleImages handleSounds handleFonts handleCollections
  constructor
  · intro h
    unfold VPX.read at h
    obtain ⟨tags, r1, h⟩ := Res.bind_inv h
    obtain ⟨info, r2, h⟩ := Res.bind_inv h
    obtain ⟨version, r3, h⟩ := Res.bind_inv h
    obtain ⟨gd, r4, h⟩ := Res.bind_inv h
    obtain ⟨items, r5, h⟩ := Res.bind_inv h
    obtain ⟨images, r6, h⟩ := Res.bind_inv h
    obtain ⟨sounds, r7, h⟩ := Res.bind_inv h
    obtain ⟨fonts, r8, h⟩ := Res.bind_inv h
    obtain ⟨colls, r9, h⟩ := Res.bind_inv h
    cases h
    have hg : fileGameData E c = .ok gd := by
      unfold fileGameData
      rw [Res.thenOk r3]; exact r4
    refine ⟨r3, r2, hg, r1, ?_, ?_, ?_, ?_, ?_⟩
    · rw [Res.thenOk hg]; exact r5
    · rw [Res.thenOk hg]; exact r6
    · rw [Res.thenOk r3, Res.thenOk hg]; exact r7
    · rw [Res.thenOk hg]; exact r8
    · rw [Res.thenOk hg]; exact r9
  · rintro ⟨r3, r2, hg, r1, r5, r6, r7, r8, r9⟩
    rw [Res.thenOk hg] at r5 r6 r8 r9
    rw [Res.thenOk r3, Res.thenOk hg] at r7
    have r4 := hg
    unfold fileGameData at r4
    rw [Res.thenOk r3] at r4
    unfold VPX.read
    rw [Res.thenOk r1, Res.thenOk r2, Res.thenOk r3, Res.thenOk r4, Res.thenOk r5, Res.thenOk r6, Res.thenOk r7,
      Res.thenOk r8, Res.thenOk r9]
    rfl

/-! ### Counts, and saves that fail -/

/-- **C94** lowering the counts in the game data hides elements but does not remove them: after any storable game data was
saved, the counts in it decide what is returned, and saving the former game data brings back the former table -/
theorem C94_hidden (E : Env) (P : PictureLib) {c : Cfb} {s : VPX} (h : InFile E c s) {g : GameData}
    (hg : g.WF s.version.number) : ∃ c1 c2,
      (HandleCall.writeGameData g).run E P c = (.done, c1) ∧
      FirstOf .gameItems g.gameitems_size s.gameitems (HandleCall.readGameItems.run E P c1).1 ∧
      FirstOf .images g.images_size s.images (HandleCall.readImages.run E P c1).1 ∧
      FirstOf .sounds g.sounds_size s.sounds (HandleCall.readSounds.run E P c1).1 ∧
      FirstOf .fonts g.fonts_size s.fonts (HandleCall.readFonts.run E P c1).1 ∧
      FirstOf .collections g.collections_size s.collections (HandleCall.readCollections.run E P c1).1 ∧
      (HandleCall.writeGameData s.gamedata).run E P c1 = (.done, c2) ∧ InFile E c2 s := by
  obtain ⟨c1, h1, h2⟩ := h.update hg
  obtain ⟨c2, h3, h4⟩ := h2.update (g := s.gamedata) h.file.storable
  have hf := h2.file.file
  have hv := h2.file.version
  refine ⟨c1, c2, ?_, ?_, ?_, ?_, ?_, ?_, ?_, h4⟩
  · dsimp only [HandleCall.run]; rw [h1]; rfl
  · dsimp only [HandleCall.run]; unfold handleItems; rw [Res.thenOk hf]
    exact h2.gameitems.firstOf Reply.gameItems g.gameitems_size
  · dsimp only [HandleCall.run]; unfold handleImages; rw [Res.thenOk hf]
    exact h2.images.firstOf Reply.images g.images_size
  · dsimp only [HandleCall.run]; unfold handleSounds; rw [Res.thenOk hv, Res.thenOk hf]
    exact h2.sounds.firstOf Reply.sounds g.sounds_size
  · dsimp only [HandleCall.run]; unfold handleFonts; rw [Res.thenOk hf]
    exact h2.fonts.firstOf Reply.fonts g.fonts_size
  · dsimp only [HandleCall.run]; unfold handleCollections; rw [Res.thenOk hf]
    exact h2.collections.firstOf Reply.collections g.collections_size
  · dsimp only [HandleCall.run]; rw [h3]; rfl

theorem read_nothing (v : UInt32) : GameData.read v [] = .error .panic := rfl

/-- the file after a save that stopped while encoding -/
theorem InFile.emptied {c : Cfb} {s : VPX} (h : InFile E c s) : ∃ c',
    c.createStream E.toCfbLib (gamePath "GameData".toList) [] = .ok c' := by
  obtain ⟨c1, h1, -⟩ := h.file.update h.file.storable
  obtain ⟨c2, h2, -⟩ := Res.unbind h1
  unfold writeGameData at h2
  obtain ⟨data, -, h3⟩ := Res.unbind h2
  exact createStream_any h3 []

/-- the calls that need the game data -/
def HandleCall.NeedsGameData (call : HandleCall) : Prop :=
  call ∈ [.readGameData, .isLocked, .lock, .unlock, .readGameItems, .readImages, .readSounds, .readFonts, .readCollections,
    .imagesToWebp]

/-- **C94** a save of game data that cannot be encoded destroys the game data in the file: the call panics, and after it
every call that needs the game data panics, as does reading the table. Every other stream is as before, and a later save
of game data that can be stored repairs the file as if nothing had happened. -/
theorem C94_failed_save (E : Env) (P : PictureLib) {c : Cfb} {s : VPX} (h : InFile E c s) {g : GameData}
    (hx : Unstorable g.playfield_reflection_strength) : ∃ c',
      (HandleCall.writeGameData g).run E P c = (.failed .panic, c') ∧
      (∀ call : HandleCall, call.NeedsGameData → call.run E P c' = (.failed .panic, c')) ∧
      VPX.read E c' = .error .panic ∧
      (∀ p, E.toCfbLib.key p ≠ E.toCfbLib.key (gamePath "GameData".toList) →
        c'.get E.toCfbLib p = c.get E.toCfbLib p) ∧
      (∀ good : GameData, good.WF s.version.number →
        (HandleCall.writeGameData good).run E P c' = (HandleCall.writeGameData good).run E P c) := by
  obtain ⟨c', hc⟩ := h.emptied
  have hbad : ∀ v, g.write v = .error .panic := fun v => (C31_save_refuses hx).2.2.2 v g rfl
  have hget := Cfb.get_createStream hc
  have hv : readVersion E c' = .ok s.version := by
    have h0 := h.file.version
    unfold readVersion Cfb.openStream at h0 ⊢
    rw [hget, if_neg]
    · exact h0
    · exact (key_ne_of_kind (by rw [kind_game (by decide), kind_game (by decide)]; decide))
  have hf : fileGameData E c' = .error .panic := by
    unfold fileGameData
    rw [Res.thenOk hv]
    unfold readGameData Cfb.openStream
    rw [hget, if_pos rfl]
    exact read_nothing s.version.number
  have hsame : ∀ p, E.toCfbLib.key p ≠ E.toCfbLib.key (gamePath "GameData".toList) →
      c'.get E.toCfbLib p = c.get E.toCfbLib p := fun p hp => by rw [hget, if_neg hp]
  refine ⟨c', ?_, ?_, ?_, hsame, ?_⟩
  · dsimp only [HandleCall.run]
    unfold handleWrite
    rw [h.file.version]
    dsimp only
    unfold saveGameData
    rw [hc]
    dsimp only
    rw [hbad]
    rfl
  · intro call hn
    unfold HandleCall.NeedsGameData at hn
    simp only [List.mem_cons, List.not_mem_nil, or_false] at hn
    rcases hn with rfl | rfl | rfl | rfl | rfl | rfl | rfl | rfl | rfl | rfl <;> dsimp only [HandleCall.run]
    · rw [hf]; rfl
    · unfold isLocked; rw [hf]; rfl
    · unfold handleLock; rw [hf]; rfl
    · unfold handleUnlock; rw [hf]; rfl
    · unfold handleItems; rw [hf]; rfl
    · unfold handleImages; rw [hf]; rfl
    · unfold handleSounds; rw [Res.thenOk hv, hf]; rfl
    · unfold handleFonts; rw [hf]; rfl
    · unfold handleCollections; rw [hf]; rfl
    · unfold imagesToWebp; rw [hf]; rfl
  · have ht : readCustomInfoTags E c' = .ok s.custominfotags := by
      have h0 := h.tags
      unfold readCustomInfoTags at h0 ⊢
      rw [hsame _ (key_ne_of_kind (by rw [kind_game (by decide), kind_game (by decide)]; decide))]
      exact h0
    obtain ⟨t, hi, -⟩ := h.info
    have hi' : TableInfo.read E.toCfbLib c' = .ok t := by
      rw [← hi]
      unfold TableInfo.read
      rw [createStream_children hc]
    unfold VPX.read
    rw [Res.thenOk ht, Res.thenOk hi', Res.thenOk hv]
    unfold fileGameData at hf
    rw [Res.thenOk hv] at hf
    rw [hf]
    rfl
  · intro good _
    have : handleWrite E good c' = handleWrite E good c := by
      unfold handleWrite
      rw [hv, h.file.version]
      dsimp only
      have : saveGameData E good s.version c' = saveGameData E good s.version c := by
        unfold saveGameData
        rw [createStream_again hc, hc]
      rw [this]
    dsimp only [HandleCall.run]
    rw [this]

/-- a failed save does not leave the table in the file -/
theorem C94_failed_save_counterexample : ¬ ∀ (E : Env) (P : PictureLib) (c : Cfb) (s : VPX) (g : GameData) (e : Err),
    InFile E c s → ((HandleCall.writeGameData g).run E P c).1 = .failed e →
    InFile E ((HandleCall.writeGameData g).run E P c).2 s := by
  intro hall
  obtain ⟨c, -, hc⟩ := C94_written sampleEnv VPX.sample VPX.sample_wf
  obtain ⟨c', h1, h2, -⟩ := C94_failed_save sampleEnv toyPictures hc
    (g := { VPX.sample.gamedata with playfield_reflection_strength := 0x7fc00000 }) (by unfold Unstorable; decide)
  have := hall sampleEnv toyPictures c VPX.sample _ .panic hc (by rw [h1])
  rw [h1] at this
  have hr := h2 .readGameData (by unfold HandleCall.NeedsGameData; simp)
  dsimp only [HandleCall.run] at hr
  rw [this.file.file] at hr
  cases hr

/-- a locked table is written and opened, locked again, unlocked and locked: the hypotheses of `C94_history_plain` are met, and the answers
follow from it -/
example : ∃ c, VPX.sample.write sampleEnv = .ok c ∧
    (runHandle sampleEnv toyPictures [.isLocked, .lock, .unlock, .isLocked, .lock, .isLocked] c).1 =
      [.answer true, .answer false, .answer true, .answer false, .answer true, .answer true] := by
  obtain ⟨c, hw, hc⟩ := C94_written sampleEnv VPX.sample VPX.sample_wf
  refine ⟨c, hw, ?_⟩
  obtain ⟨s', h, -⟩ := C94_history_plain sampleEnv toyPictures toyLaws
    [.isLocked, .lock, .unlock, .isLocked, .lock, .isLocked] hc (by simp) (by simp)
  have f0 : VPX.sample.lockedNow = true := by decide +kernel
  have f1 : (VPX.sample.withLock true).lockedNow = true := by decide +kernel
  have f2 : ((VPX.sample.withLock true).withLock false).lockedNow = false := by decide +kernel
  have f3 : (((VPX.sample.withLock true).withLock false).withLock true).lockedNow = true := by decide +kernel
  generalize (runHandle sampleEnv toyPictures [.isLocked, .lock, .unlock, .isLocked, .lock, .isLocked] c).1 = rs at h ⊢
  obtain _ | ⟨e1, h⟩ := h
  obtain _ | ⟨e2, h⟩ := h
  obtain _ | ⟨e3, h⟩ := h
  obtain _ | ⟨e4, h⟩ := h
  obtain _ | ⟨e5, h⟩ := h
  obtain _ | ⟨e6, h⟩ := h
  cases e1; cases e2; cases e3; cases e4; cases e5; cases e6; cases h
  rw [f0, f1, f2, f3]
  rfl

/-- game data that counts one image more than there are can be stored: reading the images fails, reading the other parts
does not (`C94_hidden`) -/
example : ({ VPX.sample.gamedata with images_size := 9 } : GameData).WF VPX.sample.version.number ∧
    VPX.sample.images.length < ({ VPX.sample.gamedata with images_size := 9 } : GameData).images_size.toNat :=
  ⟨⟨VPX.sample_wf.gamedata.1, VPX.sample_wf.gamedata.2.1, VPX.sample_wf.gamedata.2.2⟩, by decide⟩

/-- a table with images to convert meets the hypotheses of `C94_call` for the conversion -/
example : ∃ c, InFile sampleEnv c webpSample ∧ HandleCall.imagesToWebp.Allowed toyPictures webpSample := by
  obtain ⟨c, -, hc⟩ := C94_written sampleEnv webpSample webpSample_wf
  refine ⟨c, hc, ?_⟩
  intro im him
  have him := List.mem_of_mem_take him
  simp only [webpSample, webpImages, List.mem_cons, List.not_mem_nil, or_false] at him
  rcases him with rfl | rfl
  · exact ⟨.inl rfl, fun _ => by decide, by decide, fun j hj => by cases hj; decide⟩
  · exact ⟨.inr rfl, fun _ => by decide, by decide, nofun⟩

end Vpin
