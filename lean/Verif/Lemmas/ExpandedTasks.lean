import Verif.Lemmas.Expanded
/-
The files that writing the items touches, for all items, also when a task fails.
-/
namespace Vpin
variable (E : ExpandEnv)

/-! ### Names -/

theorem frameFiles_names (fmt : MeshFormat) (base name : Str) (m : Mesh) : ∀ (l : List (Bytes × UInt32)) (i : Nat),
    ∀ f ∈ (frameFiles E fmt base name m i l).1.map (·.1), ∃ k, i ≤ k ∧ ∃ e ∈ fmt.exts, f = fileName (frameStem base k) e
  | [], i, f, h => by cases h
  | (b, n) :: l, i, f, h => by
    unfold frameFiles at h
    split at h
    · cases h
    · dsimp only at h
      rw [List.map_append, List.mem_append, meshFiles_names] at h
      rcases h with h | h
      · obtain ⟨e, he, rfl⟩ := List.mem_map.1 h
        exact ⟨i, Nat.le_refl i, e, he, rfl⟩
      · obtain ⟨k, h1, h2⟩ := frameFiles_names fmt base name m l (i + 1) f h
        exact ⟨k, by omega, h2⟩

theorem frameFiles_nodup (fmt : MeshFormat) (base name : Str) (m : Mesh) : ∀ (l : List (Bytes × UInt32)) (i : Nat),
    ((frameFiles E fmt base name m i l).1.map (·.1)).Nodup
  | [], i => by simp [frameFiles]
  | (b, n) :: l, i => by
    unfold frameFiles
    split
    · exact List.nodup_nil
    · dsimp only
      rw [List.map_append, List.nodup_append, meshFiles_names]
      refine ⟨exts_nodup fmt _, frameFiles_nodup fmt base name m l (i + 1), ?_⟩
      intro a ha b hb e
      subst e
      obtain ⟨x, hx, rfl⟩ := List.mem_map.1 ha
      obtain ⟨k, hk, y, hy, h⟩ := frameFiles_names E fmt base name m l (i + 1) _ hb
      have := (frameStem_inj (fileName_inj (exts_plain fmt x hx).1 (exts_plain fmt y hy).1 h).1).2
      omega

/-- `trimJson` gives a front part -/
theorem trimJsonRev_suffix : ∀ (s : Str), ∃ a, s = a ++ trimJsonRev s := by
  intro s
  induction h : s.length using Nat.strongRecOn generalizing s with
  | _ n ih =>
    unfold trimJsonRev
    split
    · next rest =>
      obtain ⟨a, ha⟩ := ih rest.length (by rw [← h]; simp only [List.length_cons]; omega) rest rfl
      exact ⟨'n' :: 'o' :: 's' :: 'j' :: '.' :: a, by simp only [List.cons_append]; rw [← ha]⟩
    · exact ⟨[], rfl⟩

theorem trimJson_prefix (s : Str) : ∃ a, s = trimJson s ++ a := by
  obtain ⟨a, h⟩ := trimJsonRev_suffix s.reverse
  refine ⟨a.reverse, ?_⟩
  have := congrArg List.reverse h
  rw [List.reverse_reverse, List.reverse_append] at this
  exact this

theorem trimJson_no_slash {s : Str} (h : '/' ∉ s) : '/' ∉ trimJson s := by
  obtain ⟨a, e⟩ := trimJson_prefix s
  intro hm
  rw [e] at h
  exact h (List.mem_append_left _ hm)

/-- the frame of an item has another name than the item -/
theorem ne_own_frame (n : Str) (i : Nat) : n ≠ frameStem (trimJson n) i := by
  intro e
  have hn : ∀ a, n ≠ a ++ ".json".toList := by
    intro a e2
    rw [e] at e2
    have := congrArg List.getLast? e2
    rw [List.getLast?_append] at this
    have hl : (".json".toList).getLast? = some 'n' := rfl
    rw [hl, Option.some_or] at this
    have hd : decimal i ≠ [] := by
      obtain ⟨c, cs, e3, -⟩ := decimalF_cons i i
      intro e4
      have e5 : decimal i = c :: cs := e3
      rw [e4] at e5
      cases e5
    have h3 : (frameStem (trimJson n) i).getLast? = (decimal i).getLast? := by
      unfold frameStem
      rw [List.getLast?_append, Option.or_of_isSome]
      cases hz : decimal i with
      | nil => exact absurd hz hd
      | cons a l => rw [List.getLast?_eq_some_getLast (List.cons_ne_nil _ _)]; rfl
    rw [h3] at this
    have h4 : 'n' ∈ decimal i := List.mem_of_getLast? this
    have := (decimalF_digits (i + 1) i 'n' h4).2
    exact absurd this (by decide)
  have h2 := trimJson_of_not hn
  rw [h2] at e
  have := congrArg List.length e
  unfold frameStem at this
  simp at this

/-- the names of the files of any item -/
def AnyTaskFile (fmt : MeshFormat) (n : Str) (g : GameItemEnum) (f : Str) : Prop :=
  f = itemFile n ∨ (∃ p, g = .primitive p) ∧ ∃ e ∈ fmt.exts,
    f = fileName n e ∨ ∃ i, f = fileName (frameStem (trimJson n) i) e

theorem meshTask_names (fmt : MeshFormat) (n : Str) (p : Primitive) :
    (∀ f ∈ (p.meshTask E fmt n).1.map (·.1), ∃ e ∈ fmt.exts,
      f = fileName n e ∨ ∃ i, f = fileName (frameStem (trimJson n) i) e) ∧
    ((p.meshTask E fmt n).1.map (·.1)).Nodup := by
  unfold Primitive.meshTask
  split
  · exact ⟨fun f hf => (by cases hf), List.nodup_nil⟩
  · exact ⟨fun f hf => (by cases hf), List.nodup_nil⟩
  · next m hm =>
    have hf : (∀ f ∈ (p.frameTask E fmt n m).1.map (·.1), ∃ k, ∃ e ∈ fmt.exts,
          f = fileName (frameStem (trimJson n) k) e) ∧ ((p.frameTask E fmt n m).1.map (·.1)).Nodup := by
      unfold Primitive.frameTask
      split
      · exact ⟨fun f hf => (by cases hf), List.nodup_nil⟩
      · exact ⟨fun f hf => (by cases hf), List.nodup_nil⟩
      · refine ⟨fun f hf => ?_, frameFiles_nodup E fmt _ _ m _ 0⟩
        obtain ⟨k, -, h⟩ := frameFiles_names E fmt _ _ m _ 0 f hf
        exact ⟨k, h⟩
    dsimp only
    rw [List.map_append, meshFiles_names]
    constructor
    · intro f h
      rcases List.mem_append.1 h with h | h
      · obtain ⟨e, he, rfl⟩ := List.mem_map.1 h
        exact ⟨e, he, .inl rfl⟩
      · obtain ⟨k, e, he, rfl⟩ := hf.1 f h
        exact ⟨e, he, .inr ⟨k, rfl⟩⟩
    · rw [List.nodup_append]
      refine ⟨exts_nodup fmt n, hf.2, ?_⟩
      intro a ha b hb e
      subst e
      obtain ⟨x, hx, rfl⟩ := List.mem_map.1 ha
      obtain ⟨k, y, hy, h⟩ := hf.1 _ hb
      exact ne_own_frame n k (fileName_inj (exts_plain fmt x hx).1 (exts_plain fmt y hy).1 h).1

theorem anyTask_names (fmt : MeshFormat) (n : Str) (g : GameItemEnum) :
    (∀ f ∈ (itemTask E fmt n g).1.map (·.1), AnyTaskFile fmt n g f) ∧ ((itemTask E fmt n g).1.map (·.1)).Nodup := by
  have hb : (∀ f ∈ (binaries E fmt n g).1.map (·.1), (∃ p, g = .primitive p) ∧ ∃ e ∈ fmt.exts,
      f = fileName n e ∨ ∃ i, f = fileName (frameStem (trimJson n) i) e) ∧ ((binaries E fmt n g).1.map (·.1)).Nodup := by
    cases g with
    | primitive p =>
      obtain ⟨h1, h2⟩ := meshTask_names E fmt n p
      exact ⟨fun f hf => ⟨⟨p, rfl⟩, h1 f hf⟩, h2⟩
    | _ => exact ⟨fun f hf => (by cases hf), List.nodup_nil⟩
  unfold itemTask
  dsimp only
  rw [List.map_cons]
  constructor
  · intro f hf
    rcases List.mem_cons.1 hf with rfl | hf
    · exact .inl rfl
    · exact .inr (hb.1 f hf)
  · rw [List.nodup_cons]
    refine ⟨fun hm => ?_, hb.2⟩
    obtain ⟨-, e, he, h⟩ := hb.1 _ hm
    have : "json".toList = e := by
      rcases h with h | ⟨i, h⟩ <;> exact (fileName_inj (by decide) (exts_plain fmt e he).1 h).2
    exact (exts_plain fmt e he).2.2 this.symm

theorem AnyTaskFile.plain {fmt : MeshFormat} {n : Str} {g : GameItemEnum} (hn : '/' ∉ n) {f : Str}
    (h : AnyTaskFile fmt n g f) : '/' ∉ f := by
  rcases h with rfl | ⟨-, e, he, h⟩
  · exact fileName_no_slash hn (by decide)
  · have hp := exts_plain fmt e he
    rcases h with rfl | ⟨i, rfl⟩
    · exact fileName_no_slash hn hp.2.1
    · exact fileName_no_slash (frameStem_no_slash (trimJson_no_slash hn) i) hp.2.1

/-- a JSON file in the directory of the items is that of an item -/
theorem AnyTaskFile.json {fmt : MeshFormat} {n : Str} {g : GameItemEnum} {f : Str}
    (h : AnyTaskFile fmt n g (fileName f "json".toList)) : f = n := by
  rcases h with h | ⟨-, e, he, h⟩
  · exact (fileName_inj (by decide) (by decide) h).1
  · have : "json".toList = e := by
      rcases h with h | ⟨i, h⟩ <;> exact (fileName_inj (by decide) (exts_plain fmt e he).1 h).2
    exact absurd this.symm (exts_plain fmt e he).2.2

/-- the stems of the items, with the items -/
theorem stems_zip {items : List GameItemEnum} {stems : List Str} (h : itemStems E.U [] items = .ok stems) :
    (∀ x ∈ stems.zip items, StemOf E.U x.1 x.2) ∧ ((stems.zip items).map (·.1)).Nodup ∧
      stems.length = items.length := by
  obtain ⟨h1, h2⟩ := itemStems_nodup h
  refine ⟨itemStems_zip items [] stems h, ?_, h2⟩
  rw [zip_fst_map _ _ h2]
  exact h1

/-- the names of primitives that do not disturb others -/
def CalmName (U : Unicode) (name : Str) : Prop := name ≠ "json".toList ∧ ¬ AnimName U name

theorem anyTask_owner {fmt : MeshFormat} {x y : Str × GameItemEnum} (sx : StemOf E.U x.1 x.2) (sy : StemOf E.U y.1 y.2)
    (cx : ∀ p, x.2 = .primitive p → CalmName E.U p.name) (cy : ∀ p, y.2 = .primitive p → CalmName E.U p.name)
    {f : Str} (h1 : AnyTaskFile fmt x.1 x.2 f) (h2 : AnyTaskFile fmt y.1 y.2 f) : x.1 = y.1 := by
  rcases h1 with rfl | ⟨⟨p, hp⟩, e, he, h1⟩
  · exact h2.json
  · rcases h2 with rfl | ⟨⟨q, hq⟩, e', he', h2⟩
    · have : AnyTaskFile fmt x.1 x.2 (itemFile y.1) := .inr ⟨⟨p, hp⟩, e, he, h1⟩
      exact this.json.symm
    · rw [hp] at sx
      rw [hq] at sy
      have tx : trimJson x.1 = x.1 := trimJson_of_not (sx.not_json (cx p hp).1)
      have ty : trimJson y.1 = y.1 := trimJson_of_not (sy.not_json (cy q hq).1)
      rw [tx] at h1
      rw [ty] at h2
      have d1 := (exts_plain fmt e he).1
      have d2 := (exts_plain fmt e' he').1
      rcases h1 with h1 | ⟨i, h1⟩ <;> rcases h2 with h2 | ⟨j, h2⟩
      · exact (fileName_inj d1 d2 (h1.symm.trans h2)).1
      · exact absurd (fileName_inj d1 d2 (h1.symm.trans h2)).1 (sx.ne_frame sy (cx p hp).2 j)
      · exact absurd (fileName_inj d1 d2 (h1.symm.trans h2)).1.symm (sy.ne_frame sx (cy q hq).2 i)
      · exact (frameStem_inj (fileName_inj d1 d2 (h1.symm.trans h2)).1).1

theorem tasks_nodup {fmt : MeshFormat} {items : List GameItemEnum} {stems : List Str}
    (h : itemStems E.U [] items = .ok stems) (hc : ∀ p, .primitive p ∈ items → CalmName E.U p.name) :
    ((itemsFiles E fmt (stems.zip items)).map (·.1)).Nodup := by
  obtain ⟨h1, h2, -⟩ := stems_zip E h
  unfold itemsFiles List.Nodup
  rw [List.map_flatMap, List.pairwise_flatMap]
  refine ⟨fun x hx => (anyTask_names E fmt x.1 x.2).2, ?_⟩
  unfold List.Nodup at h2
  rw [List.pairwise_map] at h2
  have hcz : ∀ x ∈ stems.zip items, ∀ p, x.2 = .primitive p → CalmName E.U p.name := by
    intro x hx p e
    exact hc p (e ▸ (List.of_mem_zip (a := x.1) (b := x.2) hx).2)
  refine h2.imp_of_mem fun {x y} hx hy hxy a ha b hb e => ?_
  subst e
  exact hxy (anyTask_owner E (h1 x hx) (h1 y hy) (hcz x hx) (hcz y hy) ((anyTask_names E fmt x.1 x.2).1 a ha)
    ((anyTask_names E fmt y.1 y.2).1 a hb))

theorem itemsFiles_any {fmt : MeshFormat} {zs : List (Str × GameItemEnum)} {w : Str × Bytes}
    (hw : w ∈ itemsFiles E fmt zs) : ∃ x ∈ zs, AnyTaskFile fmt x.1 x.2 w.1 := by
  obtain ⟨x, hx, h⟩ := List.mem_flatMap.1 hw
  exact ⟨x, hx, (anyTask_names E fmt x.1 x.2).1 _ (List.mem_map_of_mem (f := (·.1)) h)⟩

/-- the files that writing the items writes, in order -/
theorem writesOf_any_items {fmt : MeshFormat} (root : Str) {items : List GameItemEnum} {stems : List Str}
    (hst : itemStems E.U [] items = .ok stems) :
    writesOf (writeItems E fmt root items) =
      (under root "gameitems.json".toList,
        writeJson E.J (jVec jGameItemInfo) ((stems.zip items).map fun x => x.2.info (itemFile x.1))) ::
      (itemSeg E fmt (stems.zip items)).map fun w => (under root w.1, w.2) := by
  unfold writeItems writeItemTasks
  rw [hst]
  dsimp only
  rw [writesOf_append, writesOf_append, writesOf_append, absents_writes, firstError_writes, List.append_nil,
    List.nil_append, writesOf_json E root _ (by decide)]
  refine congrArg (List.cons _) ?_
  show writesOf (List.flatMap _ _) = _
  have e : ((stems.zip items).map fun x => itemTask E fmt x.1 x.2).flatMap (fun t => t.1.map fun w =>
      FsStep.write (joinPath (joinPath root "gameitems".toList) w.1) w.2)
      = (itemsFiles E fmt (stems.zip items)).map fun w => .write (joinPath (joinPath root "gameitems".toList) w.1) w.2 := by
    unfold itemsFiles
    rw [List.flatMap_map, List.map_flatMap]
  refine (congrArg writesOf e).trans ?_
  rw [writesOf_writes]
  unfold itemSeg
  rw [List.map_map]
  refine List.map_congr_left fun w hw => ?_
  obtain ⟨x, hx, hf⟩ := itemsFiles_any E hw
  rw [joinPath_two (d := "gameitems".toList) (by decide) (hf.plain ((stems_zip E hst).1 x hx).no_slash)]
  rfl

/-! ### Runs that may fail -/

/-- only what is written changes -/
theorem runSteps_get_not : ∀ (steps : List FsStep) (fs : Files) (p : Str), p ∉ (writesOf steps).map (·.1) →
    (runSteps steps fs).2.get p = fs.get p
  | [], _, _, _ => rfl
  | .write q bs :: rest, fs, p, h => by
    rw [writesOf, List.map_cons, List.mem_cons, not_or] at h
    rw [runSteps, runSteps_get_not rest _ p h.2, Files.get_insert, if_neg (fun e => h.1 e.symm)]
  | .absent q :: rest, fs, p, h => by
    rw [runSteps]
    split
    · rfl
    · exact runSteps_get_not rest fs p h
  | .fail e :: rest, fs, p, h => rfl

/-- the file is kept by the steps, however they end -/
def Keeps (q : Str) (steps : List FsStep) : Prop :=
  ∀ fs c, fs.get q = some c → (runSteps steps fs).2.get q = some c

theorem Keeps.append {q : Str} : ∀ {a b : List FsStep}, Keeps q a → Keeps q b → Keeps q (a ++ b) := by
  intro a b k1 h2 fs c hc
  have h1 := k1 fs c hc
  cases hr : runSteps a fs with
  | mk r fs1 =>
    rw [hr] at h1
    cases r with
    | ok u =>
      rw [runSteps_append_of a b fs fs1 hr]
      exact h2 fs1 c h1
    | error e =>
      have : runSteps (a ++ b) fs = (.error e, fs1) := by
        clear h1 h2 hc k1
        induction a generalizing fs with
        | nil => cases hr
        | cons s a ih =>
          cases s with
          | write p bs => exact ih _ hr
          | absent p =>
            rw [runSteps] at hr
            rw [List.cons_append, runSteps]
            split at hr
            · next hx => rw [if_pos hx]; exact hr
            · next hx => rw [if_neg hx]; exact ih _ hr
          | fail e' => exact hr
      rw [this]
      exact h1

theorem Keeps.of_not {q : Str} {steps : List FsStep} (h : q ∉ (writesOf steps).map (·.1)) : Keeps q steps :=
  fun fs _ hc => (runSteps_get_not steps fs q h).trans hc

/-- a file that is checked first is kept -/
theorem Keeps.absent {q p : Str} {steps : List FsStep} (h : p ≠ q → Keeps q steps) : Keeps q (.absent p :: steps) := by
  intro fs c hc
  rw [runSteps]
  split
  · exact hc
  · next hn =>
    refine h ?_ fs c hc
    intro e
    rw [e, hc] at hn
    exact hn rfl

theorem Keeps.absents {q : Str} : ∀ {ps : List Str} {steps : List FsStep}, (q ∉ ps → Keeps q steps) →
    Keeps q (ps.map .absent ++ steps)
  | [], steps, h => h (by simp)
  | p :: ps, steps, h => by
    rw [List.map_cons, List.cons_append]
    refine Keeps.absent fun hp => ?_
    refine Keeps.absents fun hq => h ?_
    intro hm
    rcases List.mem_cons.1 hm with rfl | hm
    · exact hp rfl
    · exact hq hm

theorem Keeps.nil {q : Str} : Keeps q [] := fun _ _ h => h

/-- blocks that check a file and then write at most that file keep all files -/
theorem Keeps.guarded {α : Type} {q : Str} (path : α → Str) (tail : α → List FsStep) : ∀ (l : List α),
    (∀ x ∈ l, ∀ w ∈ writesOf (tail x), w.1 = path x) → Keeps q (l.flatMap fun x => .absent (path x) :: tail x)
  | [], _ => Keeps.nil
  | x :: l, h => by
    rw [List.flatMap_cons, List.cons_append]
    refine Keeps.absent fun hp => Keeps.append (Keeps.of_not ?_)
      (Keeps.guarded path tail l fun y hy => h y (List.mem_cons_of_mem _ hy))
    intro hm
    obtain ⟨w, hw, e⟩ := List.mem_map.1 hm
    exact hp ((h x List.mem_cons_self w hw).symm.trans e)

/-! ### Interleavings -/

theorem get_applyWrites_perm {ws ws' : List (Str × Bytes)} (h : ws.Perm ws') (hn : (ws.map (·.1)).Nodup) (fs : Files)
    (p : Str) : (applyWrites fs ws).get p = (applyWrites fs ws').get p := by
  have hn' : (ws'.map (·.1)).Nodup := (h.map _).nodup_iff.1 hn
  by_cases hp : p ∈ ws.map (·.1)
  · obtain ⟨w, hw, rfl⟩ := List.mem_map.1 hp
    rw [get_applyWrites ws fs w.1 w.2 hn hw, get_applyWrites ws' fs w.1 w.2 hn' (h.mem_iff.1 hw)]
  · rw [get_applyWrites_not ws fs p hp, get_applyWrites_not ws' fs p (fun hm => hp ((h.map _).mem_iff.2 hm))]

end Vpin
