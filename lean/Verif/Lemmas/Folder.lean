import Verif.Spec.Folder
import Verif.Props.Compact
import Verif.Props.FileTable
/-!
Facts about the calls that name files.
-/
namespace Vpin
variable {E : Env}

theorem VPX.Same.refl' (s : VPX) : s.Same s := ⟨rfl, .refl _, rfl, rfl, rfl, rfl, rfl, rfl, rfl⟩

theorem VPX.Same.trans' {a b c : VPX} (h : a.Same b) (h' : b.Same c) : a.Same c :=
  ⟨h.1.trans h'.1, h.2.trans h'.2, h.3.trans h'.3, h.4.trans h'.4, h.5.trans h'.5, h.6.trans h'.6, h.7.trans h'.7,
    h.8.trans h'.8, h.9.trans h'.9⟩

/-! ### Well-formed files -/

theorem Cfb.Tree.createStream {L : CfbLib} {c c' : Cfb} {p : Path} {bs : Bytes} (ih : c.Tree L)
    (hc : c.createStream L p bs = .ok c') : c'.Tree L := by
  have hget := Cfb.get_createStream hc
  unfold Cfb.createStream at hc
  split at hc
  · cases hc
  · next old ho =>
    cases hc
    refine ⟨?_, ?_, ?_⟩
    · have : (List.map (fun e => L.key e.1)
          (c.map fun e => if L.key e.1 = L.key p then (e.1, Entry.stream bs) else e)) = c.map fun e => L.key e.1 := by
        rw [List.map_map]
        refine List.map_congr_left ?_
        intro e _
        dsimp only [Function.comp]
        split <;> rfl
      rw [this]; exact ih.distinct
    · intro e he
      obtain ⟨x, hx, rfl⟩ := List.mem_map.1 he
      obtain ⟨n, hn⟩ := ih.named x hx
      refine ⟨n, ?_⟩
      split <;> exact hn
    · intro e he
      obtain ⟨x, hx, rfl⟩ := List.mem_map.1 he
      have hb := ih.below x hx
      have : (if L.key x.1 = L.key p then (x.1, Entry.stream bs) else x).1 = x.1 := by split <;> rfl
      rw [this, hget, if_neg]
      · exact hb
      · intro hk
        rw [Cfb.get_congr hk, ho] at hb
        cases hb
  · next hn => exact ih.add hn hc

theorem Cfb.Tree.writeRefresh {c c' : Cfb} {g : GameData} {v : Version} (h : c.Tree E.toCfbLib)
    (hw : (writeGameData E g v c >>= refreshMac E) = .ok c') : c'.Tree E.toCfbLib := by
  obtain ⟨c1, h1, h2⟩ := Res.bind_inv hw
  unfold writeGameData at h1
  obtain ⟨bs, -, h1⟩ := Res.bind_inv h1
  unfold refreshMac at h2
  obtain ⟨m, -, h2⟩ := Res.bind_inv h2
  exact (h.createStream h1).createStream h2

theorem Cfb.Tree.perm {L : CfbLib} {c c' : Cfb} (h : c.Tree L) (hp : c'.Perm c) : c'.Tree L := by
  refine ⟨(hp.map _).nodup_iff.2 h.distinct, fun e he => h.named e (hp.mem_iff.1 he), fun e he => ?_⟩
  rw [Cfb.get_perm h.distinct hp]
  exact h.below e (hp.mem_iff.1 he)

/-! ### Stored tables -/

theorem verify_parts {c : Cfb} (h : verify E c = .ok true) :
    (∃ m, generateMac E c = .ok m) ∧ ∃ old, c.get E.toCfbLib macPath = some (.stream old) := by
  obtain ⟨m, h1, h2⟩ := (C26_verify_iff E c).1 h
  refine ⟨⟨m, h2⟩, ?_⟩
  unfold readMac Cfb.openStream at h1
  split at h1
  · next b hb => exact ⟨b, hb⟩
  · cases h1

theorem Stored.of {c : Cfb} {s s' : VPX} (tree : c.Tree E.toCfbLib) (wf : s.gamedata.WF s.version.number)
    (tags : ∀ t ∈ tagNames E.toCfbLib c, TagName t) (checked : verify E c = .ok true)
    (hr : VPX.read E c = .ok s') (hs : s.Same s') : Stored E c s := by
  obtain ⟨hm, hslot⟩ := verify_parts checked
  refine ⟨tree, ⟨?_, ?_, wf, hm, .inl hslot, tags⟩, checked, s', hr, hs⟩
  · unfold VPX.read at hr
    obtain ⟨_, -, hr⟩ := Res.bind_inv hr
    obtain ⟨_, -, hr⟩ := Res.bind_inv hr
    obtain ⟨version, r3, hr⟩ := Res.bind_inv hr
    obtain ⟨_, -, hr⟩ := Res.bind_inv hr
    obtain ⟨_, -, hr⟩ := Res.bind_inv hr
    obtain ⟨_, -, hr⟩ := Res.bind_inv hr
    obtain ⟨_, -, hr⟩ := Res.bind_inv hr
    obtain ⟨_, -, hr⟩ := Res.bind_inv hr
    obtain ⟨_, -, hr⟩ := Res.bind_inv hr
    cases hr
    rw [hs.version]; exact r3
  · unfold VPX.read at hr
    obtain ⟨_, -, hr⟩ := Res.bind_inv hr
    obtain ⟨_, -, hr⟩ := Res.bind_inv hr
    obtain ⟨version, r3, hr⟩ := Res.bind_inv hr
    obtain ⟨gd, r4, hr⟩ := Res.bind_inv hr
    obtain ⟨_, -, hr⟩ := Res.bind_inv hr
    obtain ⟨_, -, hr⟩ := Res.bind_inv hr
    obtain ⟨_, -, hr⟩ := Res.bind_inv hr
    obtain ⟨_, -, hr⟩ := Res.bind_inv hr
    obtain ⟨_, -, hr⟩ := Res.bind_inv hr
    cases hr
    rw [hs.version, hs.gamedata]; exact r4

/-- rewriting the game data of a stored table, with the same counts -/
theorem Stored.update {c : Cfb} {s : VPX} (h : Stored E c s) {g : GameData} (hg : g.WF s.version.number)
    (h1 : g.gameitems_size = s.gamedata.gameitems_size) (h2 : g.images_size = s.gamedata.images_size)
    (h3 : g.sounds_size = s.gamedata.sounds_size) (h4 : g.fonts_size = s.gamedata.fonts_size)
    (h5 : g.collections_size = s.gamedata.collections_size) :
    ∃ c', (writeGameData E g s.version c >>= refreshMac E) = .ok c' ∧ Stored E c' { s with gamedata := g } := by
  obtain ⟨c', hw, ht, -, hv⟩ := h.file.update hg
  obtain ⟨s', hr, hs⟩ := h.readable
  refine ⟨c', hw, h.tree.writeRefresh hw, ht, hv, ⟨_, (KeepsRest.of_write hw).read hr (g := g) ?_ ?_ ?_ ?_ ?_ ?_, ?_⟩⟩
  · rw [← hs.version]; exact ht.gamedata
  · rw [← hs.gamedata]; exact h1
  · rw [← hs.gamedata]; exact h2
  · rw [← hs.gamedata]; exact h3
  · rw [← hs.gamedata]; exact h4
  · rw [← hs.gamedata]; exact h5
  · exact ⟨hs.1, hs.2, hs.3, rfl, hs.5, hs.6, hs.7, hs.8, hs.9⟩

theorem Stored.written {s : VPX} (h : s.WF E) : ∃ c, s.write E = .ok c ∧ Stored E c s := by
  obtain ⟨c, hw, ht⟩ := VPX.write_tableFile h
  obtain ⟨c1, s', hw1, hr, hs⟩ := C22_table_roundtrip E s h
  rw [hw] at hw1; cases hw1
  obtain ⟨c2, hw2, hv⟩ := C26_written_table_verifies E s h
  rw [hw] at hw2; cases hw2
  exact ⟨c, hw, C29_written_wellformed E s c hw, ht, hv, s', hr, hs⟩

theorem Cfb.get_add {L : CfbLib} {c c' : Cfb} {p : Path} {e : Entry} (h : c.add L p e = .ok c') {q : Path}
    (hq : L.key q ≠ L.key p) : c'.get L q = c.get L q := by
  obtain ⟨-, rfl, -⟩ := Cfb.add_inv h
  unfold Cfb.get
  split
  · rfl
  · rw [List.find?_append]
    have : List.find? (fun x : Path × Entry => L.key x.1 == L.key q) [(p, e)] = none := by
      simp only [List.find?_cons, List.find?_nil]
      rw [beq_false_of_ne (Ne.symm hq)]
    rw [this, Option.or_none]

theorem Stored.minimal : ∃ c, writeMinimal E = .ok c ∧ Stored E c minimalTable := by
  obtain ⟨c, hw, hv, hr⟩ := C26_minimal_verifies E
  refine ⟨c, hw, Stored.of (s' := minimalTable) ?_ (GameData.default_wf 1072) ?_ hv hr (.refl' _)⟩
  · refine Cfb.Tree.of_made ?_
    unfold writeMinimal at hw
    obtain ⟨c1, h1, hw⟩ := Res.bind_inv hw
    obtain ⟨c2, h2, hw⟩ := Res.bind_inv hw
    obtain ⟨c3, h3, hw⟩ := Res.bind_inv hw
    obtain ⟨c4, h4, hw⟩ := Res.bind_inv hw
    have m1 : Cfb.Made E.toCfbLib c1 := Cfb.Made.empty.tableInfo h1
    have m3 : Cfb.Made E.toCfbLib c3 := .createStream (.createStorage m1 h2) h3
    exact (m3.gameData h4).refreshMac hw
  · have hnone : c.get E.toCfbLib (gamePath "CustomInfoTags".toList) = none := by
      unfold writeMinimal at hw
      obtain ⟨c1, h1, hw⟩ := Res.bind_inv hw
      obtain ⟨c2, h2, hw⟩ := Res.bind_inv hw
      obtain ⟨c3, h3, hw⟩ := Res.bind_inv hw
      obtain ⟨c4, h4, hw⟩ := Res.bind_inv hw
      obtain ⟨m, -, -, -, f5⟩ := refreshMac_inv hw
      obtain ⟨bs, -, -, f4⟩ := writeGameData_inv h4
      rw [f5 _ (key_ne_of_kind (by rw [kind_game (by decide), kind_mac]; decide)),
        f4 _ (key_ne_of_kind (by rw [kind_game (by decide), kind_gameData]; decide))]
      unfold writeVersion at h3
      rw [Cfb.get_createStream h3, if_neg (key_ne_of_kind (by rw [kind_game (by decide), kind_game (by decide)]; decide))]
      unfold Cfb.createStorage at h2
      split at h2
      · cases h2
      · rw [Cfb.get_add h2 (key_ne_of_kind (by rw [kind_game (by decide), kind_stg]; decide))]
        unfold TableInfo.write at h1
        obtain ⟨c0, h0, h1⟩ := Res.bind_inv h1
        cases h1
        unfold Cfb.createStorage at h0
        split at h0
        · cases h0
        · rw [Cfb.get_add h0 (key_ne_of_kind (by rw [kind_game (by decide), kind_infoStg]; decide))]
          exact Cfb.get_nil (by simp [gamePath])
    intro t ht
    unfold tagNames at ht
    rw [hnone] at ht
    cases ht

/-! ### Compacting -/

theorem infoChildren_nodup {L : CfbLib} {c : Cfb} (h : c.Tree L) : ((infoChildren L c).map (·.1)).Nodup := by
  have key : ∀ c : Cfb, (c.map fun e => L.key e.1).Nodup → ((infoChildren L c).map (·.1)).Nodup := by
    intro c
    induction c with
    | nil => intro _; exact List.nodup_nil
    | cons x xs ih =>
      intro hd
      rw [List.map_cons, List.nodup_cons] at hd
      have hx := ih hd.2
      have e : infoChildren L (x :: xs) = infoChildren L [x] ++ infoChildren L xs := infoChildren_append [x] xs
      rw [e, List.map_append, List.nodup_append]
      refine ⟨?_, hx, ?_⟩
      · unfold infoChildren
        rw [List.filterMap_cons]
        split <;> simp
      · intro a ha b hb hab
        subst hab
        obtain ⟨⟨n, v⟩, hm, rfl⟩ := List.mem_map.1 ha
        obtain ⟨⟨n', v'⟩, hm', hn⟩ := List.mem_map.1 hb
        dsimp only at hn
        subst hn
        unfold infoChildren at hm hm'
        obtain ⟨y, hy, hm⟩ := List.mem_filterMap.1 hm
        rw [List.mem_singleton.1 hy] at hm
        obtain ⟨z, hz, hm'⟩ := List.mem_filterMap.1 hm'
        have whole : ∀ (w : Path × Entry) (m : Str) (e : Entry), (match w.1.getLast? with
            | some name => if L.key w.1.dropLast = L.key [infoStg] then some (name, w.2) else none
            | none => none) = some (m, e) → L.key w.1 = L.key [infoStg, m] := by
          intro w m e hw
          split at hw
          · next name hl =>
            split at hw
            · next hk =>
              cases hw
              obtain ⟨ys, hys⟩ := List.getLast?_eq_some_iff.1 hl
              rw [hys, List.dropLast_concat] at hk
              rw [hys]
              show List.map L.fold (ys ++ [m]) = L.key ([infoStg] ++ [m])
              rw [List.map_append]
              have hk' : List.map L.fold ys = List.map L.fold [infoStg] := hk
              rw [hk']; rfl
            · cases hw
          · cases hw
        refine hd.1 (List.mem_map.2 ⟨z, hz, ?_⟩)
        rw [whole z _ _ hm', whole x _ _ hm]
  exact key c h.distinct

/-- **the same entries in another order are read as the same table** -/
theorem read_perm {c c' : Cfb} {s : VPX} (ht : c.Tree E.toCfbLib) (hp : c'.Perm c) (hr : VPX.read E c = .ok s) :
    ∃ s', VPX.read E c' = .ok s' ∧ s.Same s' := by
  have hget : ∀ p, c'.get E.toCfbLib p = c.get E.toCfbLib p := Cfb.get_perm ht.distinct hp
  have hinfo : ∀ i, TableInfo.read E.toCfbLib c = .ok i → ∃ i', TableInfo.read E.toCfbLib c' = .ok i' ∧ i.Same i' := by
    intro i hi
    unfold TableInfo.read at hi ⊢
    rw [readStorage_info] at hi ⊢
    rw [hget]
    split at hi
    · cases hi
    · next es he =>
      split at he
      · next hst =>
        cases he
        rw [if_pos hst]
        dsimp only
        have hperm : (infoChildren E.toCfbLib c').Perm (infoChildren E.toCfbLib c) := hp.filterMap _
        have hall : (E.order (infoChildren E.toCfbLib c)).Perm (E.order (infoChildren E.toCfbLib c')) :=
          (E.order_perm _).trans (hperm.symm.trans (E.order_perm _).symm)
        refine TableInfo.setAll_perm hall ?_ _ _ hi
        exact ((E.order_perm _).map _).nodup_iff.2 (infoChildren_nodup ht)
      · cases he
  have hstream : ∀ p, c'.openStream E.toCfbLib p = c.openStream E.toCfbLib p := by
    intro p; unfold Cfb.openStream; rw [hget]
  unfold VPX.read at hr ⊢
  obtain ⟨tags, r1, hr⟩ := Res.bind_inv hr
  obtain ⟨info, r2, hr⟩ := Res.bind_inv hr
  obtain ⟨version, r3, hr⟩ := Res.bind_inv hr
  obtain ⟨gd, r4, hr⟩ := Res.bind_inv hr
  obtain ⟨items, r5, hr⟩ := Res.bind_inv hr
  obtain ⟨images, r6, hr⟩ := Res.bind_inv hr
  obtain ⟨sounds, r7, hr⟩ := Res.bind_inv hr
  obtain ⟨fonts, r8, hr⟩ := Res.bind_inv hr
  obtain ⟨colls, r9, hr⟩ := Res.bind_inv hr
  cases hr
  obtain ⟨info', r2', hsame⟩ := hinfo info r2
  refine ⟨{ custominfotags := tags, info := info', version := version, gamedata := gd, gameitems := items,
            images := images, sounds := sounds, fonts := fonts, collections := colls },
    Res.bind_ok (a := tags) ?_ (Res.bind_ok r2' (Res.bind_ok (a := version) ?_ (Res.bind_ok (a := gd) ?_ ?_))),
    ⟨rfl, hsame, rfl, rfl, rfl, rfl, rfl, rfl, rfl⟩⟩
  · unfold readCustomInfoTags at r1 ⊢; rw [hget]; exact r1
  · unfold readVersion at r3 ⊢; rw [hstream]; exact r3
  · unfold readGameData at r4 ⊢; rw [hstream]; exact r4
  refine Res.bind_ok ((readFrom_congr (fun i => hget _) _ _).trans r5) ?_
  refine Res.bind_ok ((readFrom_congr (fun i => hget _) _ _).trans r6) ?_
  refine Res.bind_ok ((readFrom_congr (fun i => hget _) _ _).trans r7) ?_
  refine Res.bind_ok ((readFrom_congr (fun i => hget _) _ _).trans r8) ?_
  refine Res.bind_ok ((readFrom_congr (fun i => hget _) _ _).trans r9) ?_
  rfl

theorem Stored.perm {c c' : Cfb} {s : VPX} (h : Stored E c s) (hp : c'.Perm c) : Stored E c' s := by
  have hget : ∀ p, c'.get E.toCfbLib p = c.get E.toCfbLib p := Cfb.get_perm h.tree.distinct hp
  obtain ⟨s1, hr, hs⟩ := h.readable
  obtain ⟨s2, hr', hs'⟩ := read_perm h.tree hp hr
  refine Stored.of (s' := s2) (h.tree.perm hp) h.file.storable ?_ ?_ hr' (hs.trans' hs')
  · rw [tagNames_congr (E := E) (c := c) (hget _)]; exact h.file.tags
  · rw [C29_verify_same E c c' hp.length_eq fun p => (hget p).symm]; exact h.checked

end Vpin
