import Verif.Lemmas.Folder
/-
C91: the calls of the library on the files of a directory.
-/
namespace Vpin

/-! ### Names -/

/-- **C91**: the file beside a table has the name of the table with what is behind its last dot replaced, ... -/
theorem C91_sidecar (stem ext : Str) (h : stem ≠ []) (hx : '.' ∉ ext) :
    vbsPathFor (stem ++ '.' :: ext) = stem ++ ".vbs".toList ∧ iniPathFor (stem ++ '.' :: ext) = stem ++ ".ini".toList := by
  have e : (stem ++ '.' :: ext).reverse.dropWhile (· ≠ '.') = '.' :: stem.reverse := by
    rw [List.reverse_append, List.reverse_cons, List.append_assoc]
    have : ∀ (l r : Str), '.' ∉ l → (l ++ '.' :: r).dropWhile (· ≠ '.') = '.' :: r := by
      intro l
      induction l with
      | nil => intro r _; simp
      | cons a l ih =>
        intro r hl
        rw [List.mem_cons, not_or] at hl
        rw [List.cons_append, List.dropWhile_cons_of_pos (by simpa using Ne.symm hl.1), ih r hl.2]
    exact this _ _ (by simpa using hx)
  have hs : fileStem (stem ++ '.' :: ext) = stem := by
    unfold fileStem
    rw [e]
    dsimp only
    rw [if_neg (by simpa using h), List.reverse_reverse]
  unfold vbsPathFor iniPathFor withExtension
  rw [hs, List.append_assoc, List.append_assoc]
  exact ⟨rfl, rfl⟩

/-- ... or added, if there is no dot but at the front -/
theorem C91_sidecar_added (name : Str) (h : '.' ∉ name.drop 1) :
    vbsPathFor name = name ++ ".vbs".toList ∧ iniPathFor name = name ++ ".ini".toList := by
  have hs : fileStem name = name := by
    unfold fileStem
    split
    · rfl
    · next x r e =>
      split
      · rfl
      · next hr =>
        exfalso
        have hx : x = '.' := by
          have := List.head?_dropWhile_not (· ≠ '.') name.reverse
          rw [e] at this
          simpa using this
        have hm : name = r.reverse ++ '.' :: (name.reverse.takeWhile (· ≠ '.')).reverse := by
          have := List.takeWhile_append_dropWhile (p := (· ≠ '.')) (l := name.reverse)
          rw [e, hx] at this
          have h2 := congrArg List.reverse this
          rw [List.reverse_reverse, List.reverse_append, List.reverse_cons, List.append_assoc] at h2
          exact h2.symm
        apply h
        rw [hm]
        cases hrr : r.reverse with
        | nil => exact absurd (by simpa using hrr) hr
        | cons a b => simp
  unfold vbsPathFor iniPathFor withExtension
  rw [hs, List.append_assoc, List.append_assoc]
  exact ⟨rfl, rfl⟩

/-! ### C29 for whole tables -/

/-- **C29**: reading the table after compacting gives the table from before. -/
theorem C29_same_table (E : Env) (c c' : Cfb) (ht : c.Tree E.toCfbLib) (w : List (Path × Entry))
    (hw : c.Listing E.toCfbLib w) (hc : copyAll E.toCfbLib w c = .ok c') (s : VPX) (hr : VPX.read E c = .ok s) :
    ∃ s', VPX.read E c' = .ok s' ∧ s.Same s' := by
  obtain ⟨c1, h1, hp, -⟩ := C29_copy_same E.toCfbLib c ht w hw
  rw [hc] at h1; cases h1
  exact read_perm ht hp hr

/-! ### One call -/

variable {E : Env}

theorem Represents.get_none {d : Disk} {a : SeenFolder} (h : Represents E d a) (name : Str) :
    d name = none ↔ a name = none := by
  have := h name
  cases ha : a name with
  | none => rw [ha] at this; exact ⟨fun _ => rfl, fun _ => this⟩
  | some f =>
    rw [ha] at this
    cases f with
    | table s => obtain ⟨c, hc, -⟩ := this; rw [hc]; simp
    | data bs => dsimp only at this; rw [this]; simp

theorem Represents.table {d : Disk} {a : SeenFolder} (h : Represents E d a) {t : Str} {s : VPX}
    (ha : a t = some (.table s)) : ∃ c, d t = some (.table c) ∧ Stored E c s := by
  have := h t
  rw [ha] at this
  exact this

theorem Represents.openTable_ok {d : Disk} {a : SeenFolder} (h : Represents E d a) {t : Str} {s : VPX}
    (ha : a t = some (.table s)) : ∃ c, openTable d t = .ok c ∧ Stored E c s := by
  obtain ⟨c, hc, hs⟩ := h.table ha
  exact ⟨c, by unfold openTable; rw [hc], hs⟩

theorem Represents.openTable_err {d : Disk} {a : SeenFolder} (h : Represents E d a) {t : Str}
    (ha : ¬ a.isTable t) : openTable d t = .error .io := by
  have := h t
  unfold openTable
  cases hf : a t with
  | none => rw [hf] at this; dsimp only at this; rw [this]
  | some f =>
    rw [hf] at this
    cases f with
    | table s => exact absurd ⟨s, hf⟩ ha
    | data bs => dsimp only at this; rw [this]

theorem Represents.put {d : Disk} {a : SeenFolder} (h : Represents E d a) (t : Str) {f : FileState} {x : SeenFile}
    (hx : match x with | .data bs => f = .other bs | .table s => ∃ c, f = .table c ∧ Stored E c s) :
    Represents E (d.set t (some f)) (a.put t (some x)) := by
  intro name
  unfold SeenFolder.put Disk.set
  by_cases hn : name = t
  · rw [if_pos hn, if_pos hn]
    cases x with
    | data bs => dsimp only at hx ⊢; rw [hx]
    | table s =>
      obtain ⟨c, rfl, hc⟩ := hx
      exact ⟨c, rfl, hc⟩
  · rw [if_neg hn, if_neg hn]
    exact h name

theorem Represents.putSame {d : Disk} {a : SeenFolder} (h : Represents E d a) {t : Str} {x : SeenFile}
    (hx : a t = some x) : Represents E d (a.put t (some x)) := by
  have : a.put t (some x) = a := by
    funext n
    unfold SeenFolder.put
    split
    · next hn => rw [hn, hx]
    · rfl
  rw [this]; exact h

theorem lockedNow_eq (s : VPX) : (s.gamedata.lockCount &&& 1 != 0) = s.lockedNow := odd_iff _

theorem writeFile_after (d : Disk) (t : Str) (f : FileState) (o : Outcome) :
    (writeFile d t (.ok f) o).after d = d.set t (some f) ∧ (writeFile d t (.ok f) o).2 = o := ⟨rfl, rfl⟩

theorem Stored.locked {c : Cfb} {s : VPX} (h : Stored E c s) (call : LockCall) :
    (s.lockedNow = call.wants ∧ call.run E c = .ok (false, c)) ∨
    (s.lockedNow = !call.wants ∧ ∃ c', call.run E c = .ok (true, c') ∧ Stored E c' (s.withLock call.wants)) := by
  obtain ⟨c', hu, hst⟩ := h.update (g := { s.gamedata with locked := some (s.gamedata.lockCount + 1) })
    (GameData.locked_wf h.file.storable _) rfl rfl rfl rfl rfl
  have hlock : s.lockedNow ≠ call.wants → Stored E c' (s.withLock call.wants) := by
    intro hne
    unfold VPX.withLock
    rw [if_neg hne]; exact hst
  have hupd : updateGameData E { s.gamedata with locked := some (s.gamedata.lockCount + 1) } c = .ok c' := by
    unfold updateGameData
    rw [h.file.version]; exact hu
  have hfile := h.file.file
  have hl := lockedNow_eq s
  cases call with
  | lock =>
    cases hb : s.lockedNow with
    | true =>
      refine .inl ⟨rfl, ?_⟩
      simp only [LockCall.run, Vpin.lock, hfile, bind, Except.bind]
      rw [if_pos (by rw [hl]; exact hb)]; rfl
    | false =>
      refine .inr ⟨rfl, c', ?_, hlock (by rw [hb]; decide)⟩
      simp only [LockCall.run, Vpin.lock, hfile, bind, Except.bind]
      rw [if_neg (by rw [hl, hb]; decide), hupd]; rfl
  | unlock =>
    have hz : (s.gamedata.lockCount &&& 1 == 0) = !s.lockedNow := by rw [← hl]; simp [bne]
    cases hb : s.lockedNow with
    | true =>
      refine .inr ⟨rfl, c', ?_, hlock (by rw [hb]; decide)⟩
      simp only [LockCall.run, Vpin.unlock, hfile, bind, Except.bind]
      rw [if_neg (by rw [hz, hb]; decide), hupd]; rfl
    | false =>
      refine .inl ⟨rfl, ?_⟩
      simp only [LockCall.run, Vpin.unlock, hfile, bind, Except.bind]
      rw [if_pos (by rw [hz, hb]; decide)]; rfl

theorem lock_expected {d : Disk} {a : SeenFolder} (h : Represents E d a) {t : Str} {s : VPX}
    (ha : a t = some (.table s)) (call : LockCall) :
    let x := lockCall E d t (call.run E)
    x.2 = .answer (s.lockedNow != call.wants) ∧
      Represents E (x.after d) (a.put t (some (.table (s.withLock call.wants)))) := by
  obtain ⟨c, ho, hc⟩ := h.openTable_ok ha
  dsimp only
  unfold lockCall
  rw [ho]
  dsimp only
  rw [hc.file.file]
  dsimp only
  rcases hc.locked call with ⟨h1, h2⟩ | ⟨h1, c', h2, h3⟩
  · rw [h2]
    refine ⟨?_, ?_⟩
    · unfold lockCourse; dsimp only; rw [h1]; simp
    · have : s.withLock call.wants = s := by unfold VPX.withLock; rw [if_pos h1]
      rw [this]
      exact h.putSame ha
  · rw [h2]
    refine ⟨?_, ?_⟩
    · unfold lockCourse writeFile; dsimp only; rw [h1]; cases call.wants <;> rfl
    · exact h.put t ⟨c', rfl, h3⟩

/-- **C91, one call**: in a directory that holds what its user sees, a call returns what is expected, and the directory
holds the expected files afterwards. -/
theorem C91_call (E : Env) (walk : Cfb → List (Path × Entry))
    (hwalk : ∀ c : Cfb, c.Tree E.toCfbLib → c.Listing E.toCfbLib (walk c))
    (d : Disk) (a b : SeenFolder) (h : Represents E d a) (call : FolderCall) (o : Outcome) (he : call.Expected E a o b) :
    o.Agrees (call.course E walk d).2 ∧ Represents E ((call.course E walk d).after d) b := by
  cases he with
  | newMinimal t =>
    obtain ⟨c, hw, hs⟩ := Stored.minimal (E := E)
    unfold FolderCall.course
    simp only [hw, bind, Except.bind, pure, Except.pure]
    exact ⟨rfl, h.put t ⟨c, rfl, hs⟩⟩
  | write t s hwf =>
    obtain ⟨c, hw, hs⟩ := Stored.written hwf
    unfold FolderCall.course
    simp only [hw, bind, Except.bind, pure, Except.pure]
    exact ⟨rfl, h.put t ⟨c, rfl, hs⟩⟩
  | read t s ha =>
    obtain ⟨c, ho, hc⟩ := h.openTable_ok ha
    obtain ⟨s', hr, hs⟩ := hc.readable
    unfold FolderCall.course
    simp only [ho, hr, bind, Except.bind]
    exact ⟨hs, h⟩
  | readOther t ha =>
    unfold FolderCall.course
    simp only [h.openTable_err ha, bind, Except.bind]
    exact ⟨rfl, h⟩
  | verify t ha =>
    obtain ⟨s, ha⟩ := ha
    obtain ⟨c, ho, hc⟩ := h.openTable_ok ha
    unfold FolderCall.course
    simp only [ho, hc.checked]
    exact ⟨rfl, h⟩
  | verifyOther t ha =>
    unfold FolderCall.course
    simp only [h.openTable_err ha]
    exact ⟨rfl, h⟩
  | isLocked t s ha =>
    obtain ⟨c, ho, hc⟩ := h.openTable_ok ha
    unfold FolderCall.course
    simp only [ho, bind, Except.bind, hc.file.isLocked, lockedNow_eq]
    exact ⟨rfl, h⟩
  | isLockedOther t ha =>
    unfold FolderCall.course
    simp only [h.openTable_err ha, bind, Except.bind]
    exact ⟨rfl, h⟩
  | lock t s ha =>
    obtain ⟨h1, h2⟩ := lock_expected h ha .lock
    refine ⟨?_, h2⟩
    show _ = _
    rw [show (FolderCall.lock t).course E walk d = lockCall E d t (LockCall.lock.run E) from rfl, h1]
    show Outcome.answer (!s.lockedNow) = .answer (s.lockedNow != true)
    cases s.lockedNow <;> rfl
  | lockOther t ha =>
    unfold FolderCall.course lockCall
    simp only [h.openTable_err ha]
    exact ⟨rfl, h⟩
  | unlock t s ha =>
    obtain ⟨h1, h2⟩ := lock_expected h ha .unlock
    refine ⟨?_, h2⟩
    show _ = _
    rw [show (FolderCall.unlock t).course E walk d = lockCall E d t (LockCall.unlock.run E) from rfl, h1]
    show Outcome.answer s.lockedNow = .answer (s.lockedNow != false)
    cases s.lockedNow <;> rfl
  | unlockOther t ha =>
    unfold FolderCall.course lockCall
    simp only [h.openTable_err ha]
    exact ⟨rfl, h⟩
  | extractKeeps t script hp =>
    unfold FolderCall.course extractCourse
    dsimp only
    rw [if_neg (by rw [h.get_none]; simpa using hp)]
    exact ⟨rfl, h⟩
  | extract t script ow s ha hp =>
    obtain ⟨c, ho, hc⟩ := h.openTable_ok ha
    unfold FolderCall.course extractCourse
    dsimp only
    rw [if_pos (by rw [h.get_none]; exact hp)]
    simp only [ho, hc.file.file, bind, Except.bind]
    exact ⟨rfl, h.put _ rfl⟩
  | extractOther t script ow ha hp =>
    unfold FolderCall.course extractCourse
    dsimp only
    rw [if_pos (by rw [h.get_none]; exact hp)]
    simp only [h.openTable_err ha, bind, Except.bind]
    exact ⟨rfl, h⟩
  | importVbs t script s bs text ha hp hd h0 hl =>
    obtain ⟨c, ho, hc⟩ := h.openTable_ok ha
    have hf : d (script.getD (vbsPathFor t)) = some (.other bs) := by
      have := h (script.getD (vbsPathFor t))
      rw [hp] at this
      exact this
    obtain ⟨c', hw, hst⟩ := hc.update (g := s.gamedata.setCode text)
      (GameData.setCode_wf hc.file.storable h0 hl) rfl rfl rfl rfl rfl
    have hcourse : importCourse E d t script =
        writeFile d t (.ok (.table c')) (.imported (script.getD (vbsPathFor t))) := by
      unfold importCourse
      dsimp only
      rw [if_neg (by rw [hf]; simp), ho]
      dsimp only
      have hread : readText d (script.getD (vbsPathFor t)) = .ok text := by
        unfold readText; rw [hf]; dsimp only; rw [hd]
      simp only [hc.file.version, hc.file.gamedata, hread, bind, Except.bind, pure, Except.pure]
      congr 1
      obtain ⟨c1, h1, h2⟩ := Res.bind_inv hw
      rw [h1]
      dsimp only
      rw [h2]
    rw [show (FolderCall.importVbs t script).course E walk d = importCourse E d t script from rfl, hcourse]
    exact ⟨rfl, h.put _ ⟨c', rfl, hst⟩⟩
  | importOther t script hp =>
    have hcourse : importCourse E d t script = ([d], .failed .io) := by
      unfold importCourse
      dsimp only
      split
      · rfl
      · next hne =>
        rcases hp with ha | hp
        · rw [h.openTable_err ha]
        · by_cases ha : a.isTable t
          · obtain ⟨s, ha⟩ := ha
            obtain ⟨c, ho, hc⟩ := h.openTable_ok ha
            have hread : readText d (script.getD (vbsPathFor t)) = .error .io := by
              have hs := h (script.getD (vbsPathFor t))
              unfold readText
              cases hx : a (script.getD (vbsPathFor t)) with
              | none => rw [hx] at hs; exact absurd hs hne
              | some f =>
                rw [hx] at hs
                cases f with
                | table s => obtain ⟨c2, hc2, -⟩ := hs; rw [hc2]
                | data bs => dsimp only at hs; rw [hs]; dsimp only; rw [hp bs hx]
            rw [ho]
            simp only [hc.file.version, hc.file.gamedata, hread, bind, Except.bind]
          · rw [h.openTable_err ha]
    rw [show (FolderCall.importVbs t script).course E walk d = importCourse E d t script from rfl, hcourse]
    exact ⟨rfl, h⟩
  | compact t ha hname =>
    obtain ⟨s, ha⟩ := ha
    obtain ⟨c, hc, hst⟩ := h.table ha
    have hne : withExtension t "compacting".toList ≠ t := fun h => hname ((C29_same_name_iff t).1 h)
    obtain ⟨c', hcopy, hperm, -⟩ := C29_copy_same E.toCfbLib c hst.tree (walk c) (hwalk c hst.tree)
    unfold FolderCall.course compactTrace
    dsimp only
    rw [hc]
    dsimp only
    rw [if_neg hne, hcopy]
    refine ⟨rfl, ?_⟩
    intro name
    show match (a.put (withExtension t "compacting".toList) none) name with
      | none => _
      | some (.data bs) => _
      | some (.table s) => _
    have hst' := hst.perm hperm
    simp only [Course.after, List.getLast?_cons_cons, List.getLast?_singleton, Option.getD_some, SeenFolder.put]
    by_cases h1 : name = withExtension t "compacting".toList
    · simp only [Disk.set, if_pos h1]
    · rw [if_neg h1]
      by_cases h2 : name = t
      · rw [h2, ha]
        refine ⟨c', ?_, hst'⟩
        simp only [Disk.set, if_neg (Ne.symm hne), if_pos, if_neg hne]
      · have := h name
        simp only [Disk.set, if_neg h1, if_neg h2]
        exact this
  | compactOther t ha =>
    have hc : ∀ c, d t ≠ some (.table c) := by
      intro c hc
      have := h.openTable_err ha
      unfold openTable at this
      rw [hc] at this
      cases this
    have : compactTrace E.toCfbLib walk t d = ([d], .error .io) := by
      unfold compactTrace
      dsimp only
      split
      · next c hc' => exact absurd hc' (hc c)
      · rfl
    unfold FolderCall.course
    simp only [this]
    exact ⟨rfl, h⟩

/-! ### Any history -/

/-- two lists of results agree -/
def AgreeAll (os ps : List Outcome) : Prop := os.length = ps.length ∧
  ∀ (i : Nat) o p, os[i]? = some o → ps[i]? = some p → o.Agrees p

/-- **C91**: whatever sequence of calls is made in a directory, every call returns what is expected, and at the end the
directory holds what is expected. -/
theorem C91_history (E : Env) (walk : Cfb → List (Path × Entry))
    (hwalk : ∀ c : Cfb, c.Tree E.toCfbLib → c.Listing E.toCfbLib (walk c))
    (calls : List FolderCall) (d : Disk) (a b : SeenFolder) (os : List Outcome) (h : Represents E d a)
    (he : ExpectedAll E a calls os b) :
    AgreeAll os (runFolder E walk calls d).1 ∧ Represents E (runFolder E walk calls d).2 b := by
  induction he generalizing d with
  | nil a => exact ⟨⟨rfl, fun i o p ho => by simp at ho⟩, h⟩
  | @cons a b c call calls o os h1 h2 ih =>
    obtain ⟨g1, g2⟩ := C91_call E walk hwalk d a b h call o h1
    obtain ⟨⟨i1, i2⟩, i3⟩ := ih _ g2
    refine ⟨⟨by simp [runFolder, i1], ?_⟩, i3⟩
    intro i x y hx hy
    cases i with
    | zero =>
      simp only [runFolder, List.getElem?_cons_zero, Option.some.injEq] at hx hy
      subst hx; subst hy; exact g1
    | succ i => exact i2 i x y (by simpa using hx) (by simpa [runFolder] using hy)

/-- which calls have an expected result: all but writing a table that cannot be stored, importing a text with NULs or of
4 GiB, and compacting a table called `….compacting` -/
theorem C91_expected (E : Env) (a : SeenFolder) (call : FolderCall)
    (hw : ∀ t s, call = .write t s → s.WF E)
    (hi : ∀ t script bs text, call = .importVbs t script → a (script.getD (vbsPathFor t)) = some (.data bs) →
      decodeUtf8 bs = some text → NulFree text ∧ (encodeUtf8 text).length < 2 ^ 32)
    (hc : ∀ t, call = .compact t → ¬ ∃ s, t = s ++ ".compacting".toList ∧ s ≠ []) :
    ∃ o b, call.Expected E a o b := by
  have tab : ∀ t, (∃ s, a t = some (.table s)) ∨ ¬ a.isTable t := fun t => Classical.em _
  cases call with
  | newMinimal t => exact ⟨_, _, FolderCall.Expected.newMinimal t⟩
  | write t s => exact ⟨_, _, FolderCall.Expected.write t s (hw t s rfl)⟩
  | read t =>
    rcases tab t with ⟨s, h⟩ | h
    · exact ⟨_, _, FolderCall.Expected.read t s h⟩
    · exact ⟨_, _, FolderCall.Expected.readOther t h⟩
  | verify t =>
    rcases tab t with ⟨s, h⟩ | h
    · exact ⟨_, _, FolderCall.Expected.verify t ⟨s, h⟩⟩
    · exact ⟨_, _, FolderCall.Expected.verifyOther t h⟩
  | isLocked t =>
    rcases tab t with ⟨s, h⟩ | h
    · exact ⟨_, _, FolderCall.Expected.isLocked t s h⟩
    · exact ⟨_, _, FolderCall.Expected.isLockedOther t h⟩
  | lock t =>
    rcases tab t with ⟨s, h⟩ | h
    · exact ⟨_, _, FolderCall.Expected.lock t s h⟩
    · exact ⟨_, _, FolderCall.Expected.lockOther t h⟩
  | unlock t =>
    rcases tab t with ⟨s, h⟩ | h
    · exact ⟨_, _, FolderCall.Expected.unlock t s h⟩
    · exact ⟨_, _, FolderCall.Expected.unlockOther t h⟩
  | extract t script ow =>
    by_cases hp : a (script.getD (vbsPathFor t)) = none ∨ ow = true
    · rcases tab t with ⟨s, h⟩ | h
      · exact ⟨_, _, FolderCall.Expected.extract t script ow s h hp⟩
      · exact ⟨_, _, FolderCall.Expected.extractOther t script ow h hp⟩
    · rw [not_or] at hp
      cases ow with
      | true => exact absurd rfl hp.2
      | false => exact ⟨_, _, FolderCall.Expected.extractKeeps t script hp.1⟩
  | importVbs t script =>
    rcases tab t with ⟨s, h⟩ | h
    · by_cases hp : ∃ bs text, a (script.getD (vbsPathFor t)) = some (.data bs) ∧ decodeUtf8 bs = some text
      · obtain ⟨bs, text, h1, h2⟩ := hp
        obtain ⟨h3, h4⟩ := hi t script bs text rfl h1 h2
        exact ⟨_, _, FolderCall.Expected.importVbs t script s bs text h h1 h2 h3 h4⟩
      · refine ⟨_, _, FolderCall.Expected.importOther t script (.inr fun bs hb => ?_)⟩
        cases hd : decodeUtf8 bs with
        | none => rfl
        | some text => exact absurd ⟨bs, text, hb, hd⟩ hp
    · exact ⟨_, _, FolderCall.Expected.importOther t script (.inl h)⟩
  | compact t =>
    rcases tab t with ⟨s, h⟩ | h
    · exact ⟨_, _, FolderCall.Expected.compact t ⟨s, h⟩ (hc t rfl)⟩
    · exact ⟨_, _, FolderCall.Expected.compactOther t h⟩

/-! ### Crashes -/

theorem writeFile_frame {d : Disk} {t : Str} {r : Res FileState} {o : Outcome} :
    ∀ d' ∈ (writeFile d t r o).1, ∀ f, f ≠ t → d' f = d f := by
  intro d' hd' f hf
  have hset : ∀ x, (d.set t x) f = d f := fun x => by unfold Disk.set; rw [if_neg hf]
  unfold writeFile at hd'
  split at hd' <;> simp only [List.mem_cons, List.not_mem_nil, or_false] at hd'
  · rcases hd' with rfl | rfl | rfl
    · rfl
    · exact hset _
    · exact hset _
  · rcases hd' with rfl | rfl
    · rfl
    · exact hset _

/-- **C91, crashes**: whatever is in the directory, and whatever moment of a call the process dies at, no file has changed
but those the call is to write: none for a call that reads, the table for one that changes it, the script for an
extraction, the table and its `.compacting` for compacting. -/
theorem C91_crash_frame (E : Env) (walk : Cfb → List (Path × Entry)) (d : Disk) (call : FolderCall) :
    ∀ d' ∈ (call.course E walk d).1, ∀ f, f ∉ call.writes → d' f = d f := by
  have one : ∀ d' ∈ ([d] : List Disk), ∀ f : Str, d' f = d f := by
    intro d' h f; rw [List.mem_singleton.1 h]
  have locks : ∀ (t : Str) (call : Cfb → Res (Bool × Cfb)), ∀ d' ∈ (lockCall E d t call).1, ∀ f, f ≠ t → d' f = d f := by
    intro t call d' hd' f hf
    unfold lockCall at hd'
    split at hd'
    · exact one d' hd' f
    · split at hd'
      · exact one d' hd' f
      · unfold lockCourse at hd'
        split at hd'
        · exact writeFile_frame d' hd' f hf
        · exact one d' hd' f
        · simp only [List.mem_cons, List.not_mem_nil, or_false] at hd'
          rcases hd' with rfl | rfl
          · rfl
          · unfold Disk.set; rw [if_neg hf]
  intro d' hd' f hf
  cases call with
  | newMinimal t => exact writeFile_frame d' hd' f (by simpa [FolderCall.writes] using hf)
  | write t s => exact writeFile_frame d' hd' f (by simpa [FolderCall.writes] using hf)
  | read t =>
    unfold FolderCall.course at hd'
    dsimp only at hd'
    split at hd' <;> exact one d' hd' f
  | verify t =>
    unfold FolderCall.course at hd'
    dsimp only at hd'
    split at hd'
    · exact one d' hd' f
    · split at hd' <;> exact one d' hd' f
  | isLocked t =>
    unfold FolderCall.course at hd'
    dsimp only at hd'
    split at hd' <;> exact one d' hd' f
  | lock t => exact locks t _ d' hd' f (by simpa [FolderCall.writes] using hf)
  | unlock t => exact locks t _ d' hd' f (by simpa [FolderCall.writes] using hf)
  | extract t script ow =>
    have hf : f ≠ script.getD (vbsPathFor t) := by simpa [FolderCall.writes] using hf
    unfold FolderCall.course extractCourse at hd'
    dsimp only at hd'
    split at hd'
    · split at hd'
      · exact one d' hd' f
      · exact writeFile_frame d' hd' f hf
    · exact one d' hd' f
  | importVbs t script =>
    have hf : f ≠ t := by simpa [FolderCall.writes] using hf
    unfold FolderCall.course importCourse at hd'
    dsimp only at hd'
    split at hd'
    · exact one d' hd' f
    · split at hd'
      · exact one d' hd' f
      · split at hd'
        · exact one d' hd' f
        · exact writeFile_frame d' hd' f hf
  | compact t =>
    obtain ⟨h1, h2⟩ : f ≠ t ∧ f ≠ withExtension t "compacting".toList := by simpa [FolderCall.writes] using hf
    have hset : ∀ (e : Disk) x, (e.set t x) f = e f := fun e x => by unfold Disk.set; rw [if_neg h1]
    have hset' : ∀ (e : Disk) x, (e.set (withExtension t "compacting".toList) x) f = e f := fun e x => by
      unfold Disk.set; rw [if_neg h2]
    have hmem : d' ∈ (compactTrace E.toCfbLib walk t d).1 := by
      unfold FolderCall.course at hd'
      dsimp only at hd'
      split at hd'
      · next ds he => rw [he]; exact hd'
      · next ds e he => rw [he]; exact hd'
    unfold compactTrace at hmem
    dsimp only at hmem
    split at hmem
    · split at hmem
      · simp only [List.mem_cons, List.not_mem_nil, or_false] at hmem
        rcases hmem with rfl | rfl
        · rfl
        · exact hset' _ _
      · split at hmem
        · simp only [List.mem_cons, List.not_mem_nil, or_false] at hmem
          rcases hmem with rfl | rfl
          · rfl
          · exact hset' _ _
        · simp only [List.mem_cons, List.not_mem_nil, or_false] at hmem
          rcases hmem with rfl | rfl | rfl | rfl | rfl <;> simp only [hset, hset']
    · exact one d' hmem f

/-! ### What follows for a user -/

theorem AgreeAll.cons_inv {o : Outcome} {os ps : List Outcome} (h : AgreeAll (o :: os) ps) :
    ∃ p ps', ps = p :: ps' ∧ o.Agrees p ∧ AgreeAll os ps' := by
  obtain ⟨h1, h2⟩ := h
  cases ps with
  | nil => simp at h1
  | cons p ps =>
    exact ⟨p, ps, rfl, h2 0 o p rfl rfl, by simpa using h1, fun i x y hx hy => h2 (i + 1) x y hx hy⟩

theorem AgreeAll.nil_inv {ps : List Outcome} (h : AgreeAll [] ps) : ps = [] :=
  List.length_eq_zero_iff.1 h.1.symm

theorem Outcome.agrees_table {s : VPX} {o : Outcome} (h : Outcome.Agrees (.table s) o) : ∃ r, o = .table r ∧ s.Same r := by
  cases o with
  | table r => exact ⟨r, rfl, h⟩
  | _ => exact Outcome.noConfusion h

/-- **C91**: a script is carried from one table to another through a file: whatever tables `t1` and `t2` are, after
extracting the script of `t1` to a file and importing that file into `t2`, reading `t2` gives the table it was, with the
script of `t1`. -/
theorem C91_carry_script (E : Env) (walk : Cfb → List (Path × Entry))
    (hwalk : ∀ c : Cfb, c.Tree E.toCfbLib → c.Listing E.toCfbLib (walk c))
    (d : Disk) (a : SeenFolder) (h : Represents E d a) (t1 t2 p : Str) (s1 s2 : VPX) (h1 : a t1 = some (.table s1))
    (h2 : a t2 = some (.table s2)) (hp : p ≠ t2) (h0 : NulFree s1.gamedata.code.string)
    (hl : (encodeUtf8 s1.gamedata.code.string).length < 2 ^ 32) :
    ∃ r, (runFolder E walk [.extract t1 (some p) true, .importVbs t2 (some p), .read t2] d).1 =
        [.extracted p, .imported p, .table r] ∧
      (s2.withScript s1.gamedata.code.string).Same r := by
  have st1 := FolderCall.Expected.extract (E := E) t1 (some p) true s1 h1 (.inr rfl)
  rw [Option.getD_some] at st1
  have g2 : (a.put p (some (.data (encodeUtf8 s1.gamedata.code.string)))) t2 = some (.table s2) := by
    unfold SeenFolder.put; rw [if_neg (Ne.symm hp)]; exact h2
  have gp : (a.put p (some (.data (encodeUtf8 s1.gamedata.code.string)))) p =
      some (.data (encodeUtf8 s1.gamedata.code.string)) := by
    unfold SeenFolder.put; rw [if_pos rfl]
  have st2 := FolderCall.Expected.importVbs (E := E) t2 (some p) s2 _ _ g2 gp (decode_encode_utf8 _) h0 hl
  rw [Option.getD_some] at st2
  have st3 := FolderCall.Expected.read (E := E)
    (a := (a.put p (some (.data (encodeUtf8 s1.gamedata.code.string)))).put t2
      (some (.table (s2.withScript s1.gamedata.code.string)))) t2 (s2.withScript s1.gamedata.code.string)
      (by unfold SeenFolder.put; rw [if_pos rfl])
  have hag := (C91_history E walk hwalk _ d a _ _ h (.cons st1 (.cons st2 (.cons st3 (.nil _))))).1
  obtain ⟨x, xs, e, hx, hag⟩ := hag.cons_inv
  obtain ⟨y, ys, rfl, hy, hag⟩ := hag.cons_inv
  obtain ⟨z, zs, rfl, hz, hag⟩ := hag.cons_inv
  obtain rfl := hag.nil_inv
  obtain ⟨r, rfl, hr⟩ := Outcome.agrees_table hz
  have hx : Outcome.extracted p = x := hx
  have hy : Outcome.imported p = y := hy
  exact ⟨r, by rw [e, ← hx, ← hy], hr⟩

/-- **C91, exception**: two tables whose names differ in the extension only have the same script file; extracting the
script of one and importing it into the other without naming a file gives the second the script of the first. -/
theorem C91_shared_sidecar (E : Env) (walk : Cfb → List (Path × Entry))
    (hwalk : ∀ c : Cfb, c.Tree E.toCfbLib → c.Listing E.toCfbLib (walk c))
    (d : Disk) (a : SeenFolder) (h : Represents E d a) (stem e1 e2 : Str) (hs : stem ≠ []) (hx : '.' ∉ e1) (hy : '.' ∉ e2)
    (hv : e2 ≠ "vbs".toList) (s1 s2 : VPX) (h1 : a (stem ++ '.' :: e1) = some (.table s1))
    (h2 : a (stem ++ '.' :: e2) = some (.table s2)) (h0 : NulFree s1.gamedata.code.string)
    (hl : (encodeUtf8 s1.gamedata.code.string).length < 2 ^ 32) :
    Represents E (runFolder E walk [.extract (stem ++ '.' :: e1) none true, .importVbs (stem ++ '.' :: e2) none] d).2
      ((a.put (stem ++ ".vbs".toList) (some (.data (encodeUtf8 s1.gamedata.code.string)))).put (stem ++ '.' :: e2)
        (some (.table (s2.withScript s1.gamedata.code.string)))) := by
  have n1 := (C91_sidecar stem e1 hs hx).1
  have n2 := (C91_sidecar stem e2 hs hy).1
  have hp : stem ++ '.' :: e2 ≠ stem ++ ".vbs".toList := by
    intro he
    have he := List.append_cancel_left he
    exact hv (by injection he)
  have st1 := FolderCall.Expected.extract (E := E) (stem ++ '.' :: e1) none true s1 h1 (.inr rfl)
  rw [Option.getD_none, n1] at st1
  have g2 : (a.put (stem ++ ".vbs".toList) (some (.data (encodeUtf8 s1.gamedata.code.string)))) (stem ++ '.' :: e2) =
      some (.table s2) := by
    unfold SeenFolder.put; rw [if_neg hp]; exact h2
  have gp : (a.put (stem ++ ".vbs".toList) (some (.data (encodeUtf8 s1.gamedata.code.string))))
      ((none : Option Str).getD (vbsPathFor (stem ++ '.' :: e2))) = some (.data (encodeUtf8 s1.gamedata.code.string)) := by
    rw [Option.getD_none, n2]; unfold SeenFolder.put; rw [if_pos rfl]
  have st2 := FolderCall.Expected.importVbs (E := E) _ none s2 _ _ g2 gp (decode_encode_utf8 _) h0 hl
  exact (C91_history E walk hwalk _ d a _ _ h (.cons st1 (.cons st2 (.nil _)))).2

/-- **C91, exception**: a table whose own name ends in `.vbs` is replaced by its script when that is extracted with
`overwrite`: the file fails the check and cannot be read any more. -/
theorem C91_vbs_table_lost (E : Env) (walk : Cfb → List (Path × Entry))
    (hwalk : ∀ c : Cfb, c.Tree E.toCfbLib → c.Listing E.toCfbLib (walk c))
    (d : Disk) (a : SeenFolder) (h : Represents E d a) (stem : Str) (hs : stem ≠ []) (s : VPX)
    (ha : a (stem ++ ".vbs".toList) = some (.table s)) :
    (runFolder E walk [.extract (stem ++ ".vbs".toList) none true, .verify (stem ++ ".vbs".toList),
        .read (stem ++ ".vbs".toList)] d).1 =
      [.extracted (stem ++ ".vbs".toList), .answer false, .failed .io] := by
  have n1 : vbsPathFor (stem ++ ".vbs".toList) = stem ++ ".vbs".toList :=
    (C91_sidecar stem "vbs".toList hs (by decide)).1
  have hno : ¬ SeenFolder.isTable (a.put (stem ++ ".vbs".toList) (some (.data (encodeUtf8 s.gamedata.code.string))))
      (stem ++ ".vbs".toList) := by
    rintro ⟨x, hx⟩
    unfold SeenFolder.put at hx
    rw [if_pos rfl] at hx
    cases hx
  have st1 := FolderCall.Expected.extract (E := E) (stem ++ ".vbs".toList) none true s ha (.inr rfl)
  rw [Option.getD_none, n1] at st1
  have hag := (C91_history E walk hwalk _ d a _ _ h (.cons st1 (.cons (FolderCall.Expected.verifyOther _ hno)
    (.cons (FolderCall.Expected.readOther _ hno) (.nil _))))).1
  obtain ⟨x, xs, e, hx, hag⟩ := hag.cons_inv
  obtain ⟨y, ys, rfl, hy, hag⟩ := hag.cons_inv
  obtain ⟨z, zs, rfl, hz, hag⟩ := hag.cons_inv
  obtain rfl := hag.nil_inv
  have hx : _ = x := hx
  have hy : _ = y := hy
  have hz : _ = z := hz
  rw [e, ← hx, ← hy, ← hz]

/-! ### Concrete cases -/

/-- a listing every well-formed file has: by depth -/
def walkByDepth (c : Cfb) : List (Path × Entry) := c.mergeSort fun x y => decide (x.1.length ≤ y.1.length)

/-- so the condition on the order of listings can be met -/
theorem walkByDepth_listing (L : CfbLib) (c : Cfb) (h : c.Tree L) : c.Listing L (walkByDepth c) := by
  have hp : (walkByDepth c).Perm c := List.mergeSort_perm _ _
  have hs : (walkByDepth c).Pairwise fun x y => decide (x.1.length ≤ y.1.length) = true :=
    List.pairwise_mergeSort (by intro x y z; simp only [decide_eq_true_eq]; omega)
      (by intro x y; simp only [Bool.or_eq_true, decide_eq_true_eq]; omega) c
  refine ⟨hp, fun a e b he => ?_⟩
  by_cases h0 : e.1.dropLast = []
  · exact .inl h0
  · refine .inr ?_
    have hm : e ∈ c := hp.mem_iff.1 (by rw [he]; simp)
    obtain ⟨q, hx, hk⟩ := Cfb.get_some_mem (h.below e hm) h0
    have hlen : q.length < e.1.length := by
      have := congrArg List.length hk
      simp only [CfbLib.key, List.length_map, List.length_dropLast] at this
      have hne : e.1 ≠ [] := by intro hn; rw [hn] at h0; exact h0 rfl
      have := List.length_pos_iff.2 hne
      omega
    have hx' : (q, Entry.storage) ∈ walkByDepth c := hp.mem_iff.2 hx
    rw [he] at hx' hs
    rcases List.mem_append.1 hx' with hx' | hx'
    · exact ⟨_, hx', hk⟩
    · exfalso
      have hs := (List.pairwise_append.1 hs).2.1
      rcases List.mem_cons.1 hx' with rfl | hx'
      · exact Nat.lt_irrefl _ hlen
      · have := (List.pairwise_cons.1 hs).1 _ hx'
        simp only [decide_eq_true_eq] at this
        omega

/-- a written table meets the conditions of `C29_same_table` -/
example : ∃ c s, c.Tree sampleEnv.toCfbLib ∧ c.Listing sampleEnv.toCfbLib (walkByDepth c) ∧
    VPX.read sampleEnv c = .ok s ∧ VPX.Same VPX.sample s := by
  obtain ⟨c, -, hc⟩ := Stored.written VPX.sample_wf
  obtain ⟨s, h1, h2⟩ := hc.readable
  exact ⟨c, s, hc.tree, walkByDepth_listing _ c hc.tree, h1, h2⟩

/-- an empty directory, and one with a table with images, items and custom info and a text file, are such directories -/
example : Represents sampleEnv (fun _ => none) (fun _ => none) ∧
    ∃ d, Represents sampleEnv d ((SeenFolder.put (fun _ => none) "a.vpx".toList (some (.table VPX.sample))).put
      "a.vbs".toList (some (.data (encodeUtf8 "Sub Größe()".toList)))) := by
  have h0 : Represents sampleEnv (fun _ => none) (fun _ => none) := fun _ => rfl
  refine ⟨h0, ?_⟩
  obtain ⟨c, -, hc⟩ := Stored.written VPX.sample_wf
  exact ⟨_, (h0.put "a.vpx".toList (x := .table VPX.sample) (f := .table c) ⟨c, rfl, hc⟩).put "a.vbs".toList
    (x := .data (encodeUtf8 "Sub Größe()".toList)) (f := .other _) rfl⟩

/-- a history of calls in an empty directory, with its expected results -/
example : ∃ a, ExpectedAll sampleEnv (fun _ => none)
    [.write "a.vpx".toList VPX.sample, .extract "a.vpx".toList none false, .newMinimal "b.vpx".toList,
      .importVbs "b.vpx".toList (some "a.vbs".toList), .lock "b.vpx".toList, .lock "b.vpx".toList,
      .extract "b.vpx".toList (some "a.vbs".toList) false, .compact "b.vpx".toList, .verify "c.vpx".toList]
    [.done, .extracted "a.vbs".toList, .done, .imported "a.vbs".toList, .answer true, .answer false,
      .existed "a.vbs".toList, .done, .answer false] a := by
  have lockAns : ∀ (a : SeenFolder) (t : Str) (s : VPX) (b : Bool), a t = some (.table s) → s.lockedNow = !b →
      (FolderCall.lock t).Expected sampleEnv a (.answer b) (a.put t (some (.table (s.withLock true)))) := by
    intro a t s b h hb
    have := FolderCall.Expected.lock (E := sampleEnv) t s h
    rwa [hb, Bool.not_not] at this
  have step : ∀ {a b : SeenFolder} {call : FolderCall} {calls : List FolderCall} {o : Outcome} {os : List Outcome},
      call.Expected sampleEnv a o b → (∃ c, ExpectedAll sampleEnv b calls os c) →
      ∃ c, ExpectedAll sampleEnv a (call :: calls) (o :: os) c := fun h ⟨c, hc⟩ => ⟨c, .cons h hc⟩
  refine step (.write _ _ VPX.sample_wf) ?_
  refine step (.extract _ none _ VPX.sample rfl (.inl rfl)) ?_
  refine step (.newMinimal _) ?_
  refine step (.importVbs _ (some _) minimalTable _ VPX.sample.gamedata.code.string rfl rfl (decode_encode_utf8 _)
      (by unfold NulFree; decide +kernel) (by decide +kernel)) ?_
  refine step (lockAns _ _ (minimalTable.withScript VPX.sample.gamedata.code.string) _ rfl (by decide +kernel)) ?_
  refine step (lockAns _ _ ((minimalTable.withScript VPX.sample.gamedata.code.string).withLock true) _ rfl
    (by decide +kernel)) ?_
  refine step (.extractKeeps _ (some _) (fun h => by cases h)) ?_
  refine step (.compact _ ⟨_, rfl⟩ (by rw [← C29_same_name_iff]; decide)) ?_
  refine step (.verifyOther _ (by rintro ⟨s, h⟩; cases h)) ⟨_, .nil _⟩

end Vpin
