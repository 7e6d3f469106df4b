import Verif.Spec.Compact
import Verif.Props.FileTable
/-
C29: compacting a table file.
-/
namespace Vpin
variable {L : CfbLib}

/-! ### What holds of every compound file -/

theorem Cfb.get_some_mem {c : Cfb} {p : Path} {e : Entry} (h : c.get L p = some e) (hp : p ≠ []) :
    ∃ q, (q, e) ∈ c ∧ L.key q = L.key p := by
  unfold Cfb.get at h
  rw [if_neg hp] at h
  obtain ⟨x, hx, rfl⟩ := Option.map_eq_some_iff.1 h
  have h2 := List.find?_some hx
  exact ⟨x.1, List.mem_of_find?_eq_some hx, by simpa using h2⟩

theorem Cfb.Tree.path_ne {c : Cfb} (h : c.Tree L) {e : Path × Entry} (he : e ∈ c) : e.1 ≠ [] := by
  obtain ⟨n, hn, -⟩ := h.named e he
  intro h'
  rw [h'] at hn; cases hn

theorem key_dropLast (p : Path) : L.key p.dropLast = (L.key p).dropLast := by
  unfold CfbLib.key; rw [List.map_dropLast]

theorem Cfb.Tree.add {c c' : Cfb} (h : c.Tree L) {p : Path} {e : Entry} (hn : c.get L p = none)
    (ha : c.add L p e = .ok c') : c'.Tree L := by
  obtain ⟨hp, rfl, hb⟩ := Cfb.add_inv ha
  have hkeep : ∀ q, c.get L q = some .storage → Cfb.get L (c ++ [(p, e)]) q = some .storage := by
    intro q hq
    exact Cfb.get_append_some hq
  refine ⟨Cfb.Distinct.append_one h.distinct hn, ?_, ?_⟩
  · intro x hx
    rcases List.mem_append.1 hx with hx | hx
    · exact h.named x hx
    · rw [List.mem_singleton.1 hx]
      unfold Cfb.add at ha
      split at ha
      · cases ha
      · next name hl =>
        split at ha
        · next hc => exact ⟨name, hl, hc.2⟩
        · cases ha
  · intro x hx
    rcases List.mem_append.1 hx with hx | hx
    · exact hkeep _ (h.below x hx)
    · rw [List.mem_singleton.1 hx]; exact hkeep _ hb

theorem Cfb.Tree.of_made {c : Cfb} (h : Cfb.Made L c) : c.Tree L := by
  induction h with
  | empty => exact ⟨by simp, by simp, by simp⟩
  | createStorage _ hc ih =>
    unfold Cfb.createStorage at hc
    split at hc
    · cases hc
    · next hn => exact ih.add hn hc
  | createNewStream _ hc ih =>
    unfold Cfb.createNewStream at hc
    split at hc
    · cases hc
    · next hn => exact ih.add hn hc
  | @createStream c c' p bs _ hc ih =>
    have hget := Cfb.get_createStream hc
    unfold Cfb.createStream at hc
    split at hc
    · cases hc
    · next old ho =>
      cases hc
      refine ⟨?_, ?_, ?_⟩
      · have : (List.map (fun e => L.key e.1)
            (c.map fun e => if L.key e.1 = L.key p then (e.1, Entry.stream bs) else e)) = c.map fun e => L.key e.1 := by
          rw [List.map_map]
          refine List.map_congr_left ?_
          intro e _
          dsimp only [Function.comp]
          split <;> rfl
        rw [this]; exact ih.distinct
      · intro e he
        obtain ⟨x, hx, rfl⟩ := List.mem_map.1 he
        obtain ⟨n, hn⟩ := ih.named x hx
        refine ⟨n, ?_⟩
        split <;> exact hn
      · intro e he
        obtain ⟨x, hx, rfl⟩ := List.mem_map.1 he
        have hb := ih.below x hx
        have : (if L.key x.1 = L.key p then (x.1, Entry.stream bs) else x).1 = x.1 := by split <;> rfl
        rw [this, hget, if_neg]
        · exact hb
        · intro hk
          rw [Cfb.get_congr hk, ho] at hb
          cases hb
    · next hn => exact ih.add hn hc

theorem Cfb.get_perm {c c' : Cfb} (hd : c.Distinct L) (hp : c'.Perm c) (p : Path) :
    c'.get L p = c.get L p := by
  by_cases h0 : p = []
  · subst h0; rw [Cfb.get_root, Cfb.get_root]
  have hd' : c'.Distinct L := (hp.map _).nodup_iff.2 hd
  cases h : c.get L p with
  | some e =>
    obtain ⟨q, hq, hk⟩ := Cfb.get_some_mem h h0
    have hq0 : q ≠ [] := by
      rintro rfl
      exact key_ne_nil h0 hk.symm
    rw [← Cfb.get_congr hk]
    exact Cfb.get_of_mem hd' (hp.mem_iff.2 hq) hq0
  | none =>
    cases h' : c'.get L p with
    | none => rfl
    | some e =>
      obtain ⟨q, hq, hk⟩ := Cfb.get_some_mem h' h0
      have hq0 : q ≠ [] := by
        rintro rfl
        exact key_ne_nil h0 hk.symm
      have := Cfb.get_of_mem hd (hp.mem_iff.1 hq) hq0
      rw [Cfb.get_congr hk, h] at this
      cases this

/-! ### Copying -/

/-- storages -/
def isStg (e : Path × Entry) : Bool := match e.2 with | .storage => true | .stream _ => false

theorem Cfb.add_ok {c : Cfb} {p : Path} {e : Entry} {name : Str} (hl : p.getLast? = some name)
    (hn : validName name = true) (hb : c.get L p.dropLast = some .storage) :
    c.add L p e = .ok (c ++ [(p, e)]) := by
  unfold Cfb.add
  rw [hl]
  dsimp only
  rw [if_pos ⟨hb, hn⟩]

theorem get_none_of_distinct {a b : List (Path × Entry)} {e : Path × Entry} {out : Cfb}
    (hd : ((a ++ e :: b).map fun e => L.key e.1).Nodup) (h0 : e.1 ≠ [])
    (hs : ∀ x ∈ out, x ∈ a ∨ x ∈ b) : out.get L e.1 = none := by
  cases h : out.get L e.1 with
  | none => rfl
  | some x =>
    exfalso
    obtain ⟨q, hq, hk⟩ := Cfb.get_some_mem h h0
    rw [List.map_append, List.map_cons] at hd
    have hm := List.perm_middle.nodup_iff.1 hd
    obtain ⟨hm1, -⟩ := List.nodup_cons.1 hm
    refine hm1 ?_
    rw [← hk]
    rcases hs _ hq with h' | h'
    · exact List.mem_append_left _ (List.mem_map.2 ⟨_, h', rfl⟩)
    · exact List.mem_append_right _ (List.mem_map.2 ⟨_, h', rfl⟩)

theorem copyStorages_ok {c : Cfb} (ht : c.Tree L) {w : List (Path × Entry)} (hw : c.Listing L w) :
    ∀ b a, w = a ++ b → copyStorages L b (a.filter isStg) = .ok (w.filter isStg)
  | [], a, h => by rw [h, List.append_nil]; rfl
  | (p, .stream bs) :: b, a, h => by
    rw [copyStorages]
    have := copyStorages_ok ht hw b (a ++ [(p, .stream bs)]) (by rw [h, List.append_assoc]; rfl)
    rw [List.filter_append] at this
    simpa [isStg] using this
  | (p, .storage) :: b, a, h => by
    have hwd : (w.map fun e => L.key e.1).Nodup := (hw.perm.map _).nodup_iff.2 ht.distinct
    have hpc : (p, Entry.storage) ∈ c := hw.perm.mem_iff.1 (by rw [h]; simp)
    have hp0 : p ≠ [] := ht.path_ne hpc
    obtain ⟨name, hl, hn⟩ := ht.named _ hpc
    have hnone : Cfb.get L (a.filter isStg) p = none := by
      refine get_none_of_distinct (a := a) (b := b) (e := (p, .storage)) (by rw [← h]; exact hwd) hp0 ?_
      intro x hx
      exact .inl (List.mem_filter.1 hx).1
    have hb : Cfb.get L (a.filter isStg) p.dropLast = some .storage := by
      rcases hw.parents a _ b h with h0 | ⟨x, hx, hk⟩
      · dsimp only at h0
        rw [h0, Cfb.get_root]
      · have hxc : x ∈ c := hw.perm.mem_iff.1 (by rw [h]; exact List.mem_append_left _ hx)
        have hx0 := ht.path_ne hxc
        have h1 := Cfb.get_of_mem (c := c) ht.distinct (p := x.1) (e := x.2) hxc hx0
        rw [Cfb.get_congr hk, ht.below _ hpc] at h1
        have hxs : isStg x = true := by unfold isStg; rw [← Option.some.inj h1]
        have hda : Cfb.Distinct L (a.filter isStg) := by
          have h2 : ((a.filter isStg).map fun e => L.key e.1).Sublist (w.map fun e => L.key e.1) := by
            refine List.Sublist.map _ ?_
            rw [h]
            exact List.filter_sublist.trans (List.sublist_append_left _ _)
          exact h2.nodup hwd
        rw [← Cfb.get_congr hk, Cfb.get_of_mem hda (p := x.1) (e := x.2) (List.mem_filter.2 ⟨hx, hxs⟩) hx0]
        exact h1.symm
    have hc : Cfb.createStorage L (a.filter isStg) p = .ok (a.filter isStg ++ [(p, .storage)]) := by
      unfold Cfb.createStorage
      rw [hnone]
      exact Cfb.add_ok hl hn hb
    rw [copyStorages]
    refine Res.bind_ok hc ?_
    have := copyStorages_ok ht hw b (a ++ [(p, .storage)]) (by rw [h, List.append_assoc]; rfl)
    rw [List.filter_append] at this
    exact this

theorem copyStreams_ok {c : Cfb} (ht : c.Tree L) {w : List (Path × Entry)} (hw : c.Listing L w) :
    ∀ b a, w = a ++ b → copyStreams L c b (w.filter isStg ++ a.filter (fun e => !isStg e))
      = .ok (w.filter isStg ++ w.filter (fun e => !isStg e))
  | [], a, h => by rw [copyStreams, h, List.append_nil]
  | (p, .storage) :: b, a, h => by
    rw [copyStreams]
    have := copyStreams_ok ht hw b (a ++ [(p, .storage)]) (by rw [h, List.append_assoc]; rfl)
    rw [List.filter_append] at this
    simpa [isStg] using this
  | (p, .stream bs) :: b, a, h => by
    have hwd : (w.map fun e => L.key e.1).Nodup := (hw.perm.map _).nodup_iff.2 ht.distinct
    have hpc : (p, Entry.stream bs) ∈ c := hw.perm.mem_iff.1 (by rw [h]; simp)
    have hp0 : p ≠ [] := ht.path_ne hpc
    obtain ⟨name, hl, hn⟩ := ht.named _ hpc
    have hnone : Cfb.get L (w.filter isStg ++ a.filter (fun e => !isStg e)) p = none := by
      refine get_none_of_distinct (a := a) (b := b) (e := (p, .stream bs)) (by rw [← h]; exact hwd) hp0 ?_
      intro x hx
      rcases List.mem_append.1 hx with hx | hx
      · obtain ⟨hx1, hx2⟩ := List.mem_filter.1 hx
        rw [h] at hx1
        rcases List.mem_append.1 hx1 with h1 | h1
        · exact .inl h1
        · rcases List.mem_cons.1 h1 with rfl | h1
          · cases hx2
          · exact .inr h1
      · exact .inl (List.mem_filter.1 hx).1
    have hb : Cfb.get L (w.filter isStg ++ a.filter (fun e => !isStg e)) p.dropLast = some .storage := by
      refine Cfb.get_append_some ?_
      rcases hw.parents a _ b h with h0 | ⟨x, hx, hk⟩
      · dsimp only at h0
        rw [h0, Cfb.get_root]
      · have hxw : x ∈ w := by rw [h]; exact List.mem_append_left _ hx
        have hxc : x ∈ c := hw.perm.mem_iff.1 hxw
        have hx0 := ht.path_ne hxc
        have h1 := Cfb.get_of_mem (c := c) ht.distinct (p := x.1) (e := x.2) hxc hx0
        rw [Cfb.get_congr hk, ht.below _ hpc] at h1
        have hxs : isStg x = true := by unfold isStg; rw [← Option.some.inj h1]
        have hda : Cfb.Distinct L (w.filter isStg) := by
          have h2 : ((w.filter isStg).map fun e => L.key e.1).Sublist (w.map fun e => L.key e.1) :=
            List.Sublist.map _ List.filter_sublist
          exact h2.nodup hwd
        rw [← Cfb.get_congr hk, Cfb.get_of_mem hda (p := x.1) (e := x.2) (List.mem_filter.2 ⟨hxw, hxs⟩) hx0]
        exact h1.symm
    rw [copyStreams]
    refine Res.bind_ok (openStream_of_get (Cfb.get_of_mem ht.distinct hpc hp0)) ?_
    have hc : Cfb.createNewStream L (w.filter isStg ++ a.filter (fun e => !isStg e)) p bs
        = .ok (w.filter isStg ++ a.filter (fun e => !isStg e) ++ [(p, .stream bs)]) := by
      unfold Cfb.createNewStream
      rw [hnone]
      exact Cfb.add_ok hl hn hb
    refine Res.bind_ok hc ?_
    have := copyStreams_ok ht hw b (a ++ [(p, .stream bs)]) (by rw [h, List.append_assoc]; rfl)
    rw [List.filter_append, ← List.append_assoc] at this
    simpa [isStg] using this

/-! ### C29 -/

/-- **C29.** Copying succeeds on every compound file and the copy holds the same storages and streams. -/
theorem C29_copy_same (L : CfbLib) (c : Cfb) (ht : c.Tree L) (w : List (Path × Entry)) (hw : c.Listing L w) :
    ∃ c', copyAll L w c = .ok c' ∧ c'.Perm c ∧ Cfb.Same L c c' := by
  have hp : (w.filter isStg ++ w.filter (fun e => !isStg e)).Perm c :=
    (List.filter_append_perm isStg w).trans hw.perm
  refine ⟨w.filter isStg ++ w.filter (fun e => !isStg e), ?_, hp, ?_⟩
  · unfold copyAll
    refine Res.bind_ok (copyStorages_ok ht hw w [] rfl) ?_
    have := copyStreams_ok ht hw w [] rfl
    simpa using this
  · intro p
    exact (Cfb.get_perm ht.distinct hp p).symm

/-- everything that can be done with the library's calls gives a well-formed file -/
theorem C29_made_wellformed (L : CfbLib) (c : Cfb) (h : Cfb.Made L c) : c.Tree L := Cfb.Tree.of_made h

/-- The name of the file that is written is the name of the table exactly if that name ends in `.compacting` (with
something in front). -/
theorem C29_same_name_iff (name : Str) : withExtension name "compacting".toList = name ↔
    ∃ s, name = s ++ ".compacting".toList ∧ s ≠ [] := by
  constructor
  · intro h
    refine ⟨fileStem name, ?_, ?_⟩
    · conv => lhs; rw [← h]
      unfold withExtension
      rw [List.append_assoc]; rfl
    · intro h0
      unfold withExtension at h
      rw [h0] at h
      subst h
      revert h0
      decide
  · rintro ⟨s, rfl, hs⟩
    have : fileStem (s ++ ".compacting".toList) = s := by
      unfold fileStem
      rw [List.reverse_append]
      have e : (".compacting".toList.reverse ++ s.reverse).dropWhile (· ≠ '.') = '.' :: s.reverse := by
        rfl
      rw [e]
      dsimp only
      rw [if_neg (by simpa using hs), List.reverse_reverse]
    unfold withExtension
    rw [this, List.append_assoc]; rfl

/-- the states `compact` goes through -/
theorem compactTrace_ok {walk : Cfb → List (Path × Entry)}
    {d : Disk} {name : Str} {c : Cfb} (hd : d name = some (.table c)) (ht : c.Tree L) (hwalk : c.Listing L (walk c))
    (hname : ¬ ∃ s, name = s ++ ".compacting".toList ∧ s ≠ []) {out : Str}
    (ho : out = withExtension name "compacting".toList) :
    out ≠ name ∧ ∃ c', Cfb.Same L c c' ∧ compactTrace L walk name d =
      ([d, d.set out (some .torn), (d.set out (some .torn)).set out (some (.table c')),
        ((d.set out (some .torn)).set out (some (.table c'))).set name none,
        ((((d.set out (some .torn)).set out (some (.table c'))).set name none).set name
          ((((d.set out (some .torn)).set out (some (.table c'))).set name none) out)).set out none], .ok ()) := by
  have hne : withExtension name "compacting".toList ≠ name := fun h => hname ((C29_same_name_iff name).1 h)
  obtain ⟨c', hc, -, hsame⟩ := C29_copy_same L c ht (walk c) hwalk
  subst ho
  refine ⟨hne, c', hsame, ?_⟩
  unfold compactTrace
  rw [hd]
  dsimp only
  rw [if_neg hne, hc]

/-- **C29.** Whatever moment the process dies at, the directory holds a complete table, under its own name or as
`.compacting`; at the end it is the table's own file, and no other file has changed at any moment. -/
theorem C29_crash_safe (L : CfbLib) (walk : Cfb → List (Path × Entry))
    (d : Disk) (name : Str) (c : Cfb) (hd : d name = some (.table c)) (ht : c.Tree L) (hwalk : c.Listing L (walk c))
    (hname : ¬ ∃ s, name = s ++ ".compacting".toList ∧ s ≠ []) :
    ∃ ds last, compactTrace L walk name d = (ds, .ok ()) ∧ ds.getLast? = some last ∧
      last.holds L name c ∧
      (∀ d' ∈ ds, d'.holds L name c ∨ d'.holds L (withExtension name "compacting".toList) c) ∧
      (∀ d' ∈ ds, ∀ f, f ≠ name → f ≠ withExtension name "compacting".toList → d' f = d f) := by
  generalize ho : withExtension name "compacting".toList = out
  obtain ⟨hne, c', hsame, htr⟩ := compactTrace_ok hd ht hwalk hname ho.symm
  refine ⟨_, _, htr, rfl, ?_, ?_, ?_⟩
  · refine ⟨c', ?_, hsame⟩
    simp [Disk.set, hne.symm, hne]
  · intro d' hd'
    simp only [List.mem_cons, List.not_mem_nil, or_false] at hd'
    have self : Cfb.Same L c c := fun _ => rfl
    rcases hd' with rfl | rfl | rfl | rfl | rfl
    · exact .inl ⟨c, hd, self⟩
    · exact .inl ⟨c, by simp [Disk.set, hne.symm, hd], self⟩
    · exact .inl ⟨c, by simp [Disk.set, hne.symm, hd], self⟩
    · exact .inr ⟨c', by simp [Disk.set, hne], hsame⟩
    · exact .inl ⟨c', by simp [Disk.set, hne.symm, hne], hsame⟩
  · intro d' hd' f h1 h2
    simp only [List.mem_cons, List.not_mem_nil, or_false] at hd'
    rcases hd' with rfl | rfl | rfl | rfl | rfl <;> simp [Disk.set, h1, h2]

/-- **C29, not in place.** For every table there is a moment at which no file has the table's own name: a process
that dies then leaves only the `.compacting` file. -/
theorem C29_name_missing (L : CfbLib) (walk : Cfb → List (Path × Entry))
    (d : Disk) (name : Str) (c : Cfb) (hd : d name = some (.table c)) (ht : c.Tree L) (hwalk : c.Listing L (walk c))
    (hname : ¬ ∃ s, name = s ++ ".compacting".toList ∧ s ≠ []) :
    ∃ d' ∈ (compactTrace L walk name d).1, d' name = none := by
  obtain ⟨hne, c', -, htr⟩ := compactTrace_ok hd ht hwalk hname rfl
  rw [htr]
  refine ⟨_, List.mem_cons_of_mem _ (List.mem_cons_of_mem _ (List.mem_cons_of_mem _ List.mem_cons_self)), ?_⟩
  simp [Disk.set]

/-- **C29, the exception.** A table whose own name ends in `.compacting` is destroyed. -/
theorem C29_compacting_destroyed (L : CfbLib) (walk : Cfb → List (Path × Entry)) (d : Disk) (s : Str) (hs : s ≠ [])
    (c : Cfb) (hd : d (s ++ ".compacting".toList) = some (.table c)) :
    ∃ ds last, compactTrace L walk (s ++ ".compacting".toList) d = (ds, .error .io) ∧ ds.getLast? = some last ∧
      ∀ c', ¬ last.holds L (s ++ ".compacting".toList) c' := by
  have he := (C29_same_name_iff (s ++ ".compacting".toList)).2 ⟨s, rfl, hs⟩
  have htr : compactTrace L walk (s ++ ".compacting".toList) d
      = ([d, d.set (s ++ ".compacting".toList) (some .torn)], .error .io) := by
    unfold compactTrace; rw [hd]; dsimp only; rw [if_pos he, he]
  refine ⟨_, d.set (s ++ ".compacting".toList) (some .torn), htr, rfl, ?_⟩
  rintro c' ⟨x, hx, -⟩
  unfold Disk.set at hx
  rw [if_pos rfl] at hx
  cases hx

/-- **C29.** A table that passes its check does so after compacting, and one that does not, does not. -/
theorem C29_verify_same (E : Env) (c c' : Cfb) (hl : c'.length = c.length) (h : Cfb.Same E.toCfbLib c c') :
    verify E c' = verify E c := by
  have hm : macInput E.toCfbLib c' = macInput E.toCfbLib c := by
    have hex : ∀ p, c'.exists E.toCfbLib p = c.exists E.toCfbLib p := by
      intro p; unfold Cfb.exists; rw [h p]
    have hop : ∀ p, c'.openStream E.toCfbLib p = c.openStream E.toCfbLib p := by
      intro p; unfold Cfb.openStream; rw [h p]
    have hb : bytesIf E.toCfbLib c' = bytesIf E.toCfbLib c := by
      funext p; unfold bytesIf; rw [hex, hop]
    have hba : bytesIfAt E.toCfbLib c' = bytesIfAt E.toCfbLib c := by
      funext s; unfold bytesIfAt Cfb.existsAt Cfb.openAt
      cases pathOf s with
      | none => rfl
      | some p => simp only [hex, hop]
    have hh : hashBiffIf E.toCfbLib c' = hashBiffIf E.toCfbLib c := by
      funext p; unfold hashBiffIf; rw [hex, hop]
    have hc : hashCustom E.toCfbLib c' = hashCustom E.toCfbLib c := by
      unfold hashCustom; rw [hex, hop, hba]
    have hcp : collectionPaths E.toCfbLib c' = collectionPaths E.toCfbLib c := by
      unfold collectionPaths
      rw [hl]
      congr 1
      funext p; exact hex p
    unfold macInput
    rw [hb, hc, hh, hcp]
  have hr : readMac E c' = readMac E c := by
    unfold readMac Cfb.openStream; rw [h]
  unfold verify generateMac
  rw [hm, hr]

/-! ### Every written table is a well-formed file -/

theorem Cfb.Made.writeFrom {E : Env} {α : Type} {name : Str} {enc : α → Res Bytes} :
    ∀ {l : List α} {i : Nat} {c c' : Cfb}, Cfb.Made E.toCfbLib c → writeFrom E name enc i l c = .ok c' →
      Cfb.Made E.toCfbLib c'
  | [], i, c, c', h, hw => by cases hw; exact h
  | x :: xs, i, c, c', h, hw => by
    unfold Vpin.writeFrom at hw
    obtain ⟨bs, -, hw⟩ := Res.bind_inv hw
    obtain ⟨c1, h1, hw⟩ := Res.bind_inv hw
    exact Cfb.Made.writeFrom (.createStream h h1) hw

theorem Cfb.Made.writeImagesFrom {E : Env} :
    ∀ {l : List ImageData} {i : Nat} {c c' : Cfb}, Cfb.Made E.toCfbLib c → writeImagesFrom E i l c = .ok c' →
      Cfb.Made E.toCfbLib c'
  | [], i, c, c', h, hw => by cases hw; exact h
  | x :: xs, i, c, c', h, hw => by
    unfold Vpin.writeImagesFrom at hw
    obtain ⟨bs, -, hw⟩ := Res.bind_inv hw
    obtain ⟨c1, h1, hw⟩ := Res.bind_inv hw
    exact Cfb.Made.writeImagesFrom (.createNewStream h h1) hw

theorem Cfb.Made.writeKnown : ∀ {l : List (Str × Option Bytes)} {c c' : Cfb}, Cfb.Made L c →
    writeKnown L l c = .ok c' → Cfb.Made L c'
  | [], c, c', h, hw => by cases hw; exact h
  | (_, none) :: xs, c, c', h, hw => by
    unfold Vpin.writeKnown at hw
    exact Cfb.Made.writeKnown h hw
  | (_, some _) :: xs, c, c', h, hw => by
    unfold Vpin.writeKnown at hw
    obtain ⟨c1, h1, hw⟩ := Res.bind_inv hw
    exact Cfb.Made.writeKnown (.createStream h h1) hw

theorem Cfb.Made.writeProps : ∀ {l : List (Str × Str)} {c c' : Cfb}, Cfb.Made L c →
    writeProps L l c = .ok c' → Cfb.Made L c'
  | [], c, c', h, hw => by cases hw; exact h
  | (k, v) :: xs, c, c', h, hw => by
    unfold Vpin.writeProps at hw
    obtain ⟨c1, h1, hw⟩ := Res.bind_inv hw
    unfold Cfb.createAt at h1
    split at h1
    · exact Cfb.Made.writeProps (.createStream h h1) hw
    · cases h1

theorem Cfb.Made.tableInfo {s : TableInfo} {c c' : Cfb} (h : Cfb.Made L c) (hw : s.write L c = .ok c') :
    Cfb.Made L c' := by
  unfold TableInfo.write at hw
  obtain ⟨c1, h1, hw⟩ := Res.bind_inv hw
  obtain ⟨c2, h2, hw⟩ := Res.bind_inv hw
  exact .writeProps (.writeKnown (.createStorage h h1) h2) hw

theorem Cfb.Made.refreshMac {E : Env} {c c' : Cfb} (h : Cfb.Made E.toCfbLib c) (hw : refreshMac E c = .ok c') :
    Cfb.Made E.toCfbLib c' := by
  unfold Vpin.refreshMac at hw
  obtain ⟨m, -, hw⟩ := Res.bind_inv hw
  exact .createStream h hw

theorem Cfb.Made.gameData {E : Env} {g : GameData} {v : Version} {c c' : Cfb} (h : Cfb.Made E.toCfbLib c)
    (hw : writeGameData E g v c = .ok c') : Cfb.Made E.toCfbLib c' := by
  unfold writeGameData at hw
  obtain ⟨m, -, hw⟩ := Res.bind_inv hw
  exact .createStream h hw

/-- Whatever table is written, the file is well-formed, so compacting it is safe. -/
theorem C29_written_wellformed (E : Env) (s : VPX) (c : Cfb) (hw : s.write E = .ok c) : c.Tree E.toCfbLib := by
  refine Cfb.Tree.of_made ?_
  unfold VPX.write at hw
  obtain ⟨c1, h1, hw⟩ := Res.bind_inv hw
  have m1 : Cfb.Made E.toCfbLib c1 := .createStorage .empty h1
  obtain ⟨c2, h2, hw⟩ := Res.bind_inv hw
  unfold writeCustomInfoTags at h2
  obtain ⟨data, -, h2⟩ := Res.bind_inv h2
  have m2 : Cfb.Made E.toCfbLib c2 := .createStream m1 h2
  obtain ⟨c3, h3, hw⟩ := Res.bind_inv hw
  have m3 := m2.tableInfo h3
  obtain ⟨c4, h4, hw⟩ := Res.bind_inv hw
  have m4 : Cfb.Made E.toCfbLib c4 := .createStream m3 h4
  obtain ⟨c5, h5, hw⟩ := Res.bind_inv hw
  have m5 := m4.gameData h5
  obtain ⟨c6, h6, hw⟩ := Res.bind_inv hw
  have m6 := m5.writeFrom h6
  obtain ⟨c7, h7, hw⟩ := Res.bind_inv hw
  have m7 := m6.writeImagesFrom h7
  obtain ⟨c8, h8, hw⟩ := Res.bind_inv hw
  have m8 := m7.writeFrom h8
  obtain ⟨c9, h9, hw⟩ := Res.bind_inv hw
  have m9 := m8.writeFrom h9
  obtain ⟨c10, h10, hw⟩ := Res.bind_inv hw
  have m10 := m9.writeFrom h10
  exact m10.refreshMac hw

/-- a file with two storages and streams in both, and one of its listings, meets the hypotheses -/
def compactSample : Cfb :=
  [("GameStg".toList :: [], .storage), (["GameStg".toList, "Version".toList], .stream [48, 4, 0, 0]),
   ("TableInfo".toList :: [], .storage), (["TableInfo".toList, "TableName".toList], .stream [65, 0])]

example : compactSample.Tree sampleEnv.toCfbLib ∧ compactSample.Listing sampleEnv.toCfbLib compactSample ∧
    ¬ ∃ s, "table.vpx".toList = s ++ ".compacting".toList ∧ s ≠ [] := by
  refine ⟨⟨by decide +kernel, ?_, by decide +kernel⟩, ⟨List.Perm.refl _, ?_⟩, ?_⟩
  · intro e he
    simp only [compactSample, List.mem_cons, List.not_mem_nil, or_false] at he
    rcases he with rfl | rfl | rfl | rfl
    · exact ⟨"GameStg".toList, by decide⟩
    · exact ⟨"Version".toList, by decide⟩
    · exact ⟨"TableInfo".toList, by decide⟩
    · exact ⟨"TableName".toList, by decide⟩
  · intro a e b h
    have hl := congrArg List.length h
    rw [List.length_append, List.length_cons] at hl
    have : a.length < 4 := by simp [compactSample] at hl; omega
    have ha : a = compactSample.take a.length := by rw [h]; simp
    have he : compactSample[a.length]? = some e := by rw [h]; simp
    match hn : a.length, this with
    | 0, _ => rw [hn] at he; cases he; exact .inl rfl
    | 1, _ =>
      rw [hn] at he ha; cases he
      exact .inr ⟨_, by rw [ha]; exact List.mem_cons_self, rfl⟩
    | 2, _ => rw [hn] at he; cases he; exact .inl rfl
    | 3, _ =>
      rw [hn] at he ha; cases he
      refine .inr ⟨(["TableInfo".toList], .storage), by rw [ha]; decide, rfl⟩
  · rw [← C29_same_name_iff]
    decide

end Vpin
