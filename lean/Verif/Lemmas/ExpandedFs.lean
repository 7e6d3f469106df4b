import Verif.Model.Expanded
import Verif.Props.MemFs
/-
The steps of expanding a table, and the files they leave.
-/
namespace Vpin

/-- the files written -/
def writesOf : List FsStep → List (Str × Bytes)
  | [] => []
  | .write p bs :: rest => (p, bs) :: writesOf rest
  | _ :: rest => writesOf rest

/-- the files after writing -/
def applyWrites (fs : Files) (ws : List (Str × Bytes)) : Files := ws.foldl (fun fs w => fs.insert w.1 w.2) fs

theorem writesOf_append : ∀ a b : List FsStep, writesOf (a ++ b) = writesOf a ++ writesOf b
  | [], _ => rfl
  | .write p bs :: a, b => by
    rw [List.cons_append, writesOf, writesOf, writesOf_append a b]; rfl
  | .absent p :: a, b => by
    rw [List.cons_append, writesOf, writesOf, writesOf_append a b]
    all_goals (intro _ _ h; cases h)
  | .fail e :: a, b => by
    rw [List.cons_append, writesOf, writesOf, writesOf_append a b]
    all_goals (intro _ _ h; cases h)

theorem applyWrites_append (fs : Files) (a b : List (Str × Bytes)) :
    applyWrites fs (a ++ b) = applyWrites (applyWrites fs a) b := List.foldl_append

/-- after success exactly the writes were made -/
theorem runSteps_ok : ∀ (steps : List FsStep) (fs fs' : Files), runSteps steps fs = (.ok (), fs') →
    fs' = applyWrites fs (writesOf steps)
  | [], fs, fs', h => by cases h; rfl
  | .write p bs :: rest, fs, fs', h => runSteps_ok rest (fs.insert p bs) fs' h
  | .absent p :: rest, fs, fs', h => by
    unfold runSteps at h
    split at h
    · cases h
    · exact runSteps_ok rest fs fs' h
  | .fail e :: _, fs, fs', h => by cases h

theorem runSteps_append : ∀ (a b : List FsStep) (fs fs' : Files), runSteps (a ++ b) fs = (.ok (), fs') →
    ∃ fs1, runSteps a fs = (.ok (), fs1) ∧ runSteps b fs1 = (.ok (), fs')
  | [], b, fs, fs', h => ⟨fs, rfl, h⟩
  | .write p bs :: a, b, fs, fs', h => runSteps_append a b (fs.insert p bs) fs' h
  | .absent p :: a, b, fs, fs', h => by
    rw [List.cons_append, runSteps] at h
    rw [runSteps]
    split at h
    · cases h
    · next hc =>
      rw [if_neg hc]
      exact runSteps_append a b fs fs' h
  | .fail e :: _, b, fs, fs', h => by cases h

/-- the same steps run one part after the other -/
theorem runSteps_append_of : ∀ (a b : List FsStep) (fs fs1 : Files), runSteps a fs = (.ok (), fs1) →
    runSteps (a ++ b) fs = runSteps b fs1
  | [], b, fs, fs1, h => by cases h; rfl
  | .write p bs :: a, b, fs, fs1, h => runSteps_append_of a b (fs.insert p bs) fs1 h
  | .absent p :: a, b, fs, fs1, h => by
    rw [runSteps] at h
    rw [List.cons_append, runSteps]
    split at h
    · cases h
    · next hc =>
      rw [if_neg hc]
      exact runSteps_append_of a b fs fs1 h
  | .fail e :: _, b, fs, fs1, h => by cases h

theorem get_applyWrites_not : ∀ (ws : List (Str × Bytes)) (fs : Files) (p : Str), p ∉ ws.map (·.1) →
    (applyWrites fs ws).get p = fs.get p
  | [], _, _, _ => rfl
  | w :: ws, fs, p, h => by
    rw [List.map_cons, List.mem_cons, not_or] at h
    show (applyWrites (fs.insert w.1 w.2) ws).get p = _
    rw [get_applyWrites_not ws _ p h.2, Files.get_insert, if_neg (fun e => h.1 e.symm)]

theorem get_applyWrites : ∀ (ws : List (Str × Bytes)) (fs : Files) (p : Str) (bs : Bytes), (ws.map (·.1)).Nodup →
    (p, bs) ∈ ws → (applyWrites fs ws).get p = some bs
  | [], _, _, _, _, h => by cases h
  | w :: ws, fs, p, bs, hn, h => by
    rw [List.map_cons, List.nodup_cons] at hn
    show (applyWrites (fs.insert w.1 w.2) ws).get p = _
    rcases List.mem_cons.1 h with rfl | h
    · rw [get_applyWrites_not ws _ _ hn.1, Files.get_insert, if_pos rfl]
    · exact get_applyWrites ws _ p bs hn.2 h

/-! ### Guarded writes -/

/-- blocks that check that a file is not there and then write at most that file -/
theorem guarded_nodup {α : Type} (path : α → Str) (tail : α → List FsStep)
    (ht : ∀ x, tail x = [] ∨ (∃ bs, tail x = [.write (path x) bs]) ∨ ∃ e, tail x = [.fail e]) :
    ∀ (l : List α) (fs fs' : Files), runSteps (l.flatMap fun x => .absent (path x) :: tail x) fs = (.ok (), fs') →
      ((writesOf (l.flatMap fun x => .absent (path x) :: tail x)).map (·.1)).Nodup ∧
      ∀ p ∈ (writesOf (l.flatMap fun x => .absent (path x) :: tail x)).map (·.1), fs.get p = none
  | [], fs, fs', _ => ⟨by simp [writesOf], by simp [writesOf]⟩
  | x :: l, fs, fs', h => by
    rw [List.flatMap_cons, List.cons_append, runSteps] at h
    rw [List.flatMap_cons, List.cons_append, writesOf]
    · split at h
      · cases h
      · next hc =>
        have hnone : fs.get (path x) = none := by
          cases hg : fs.get (path x) with
          | none => rfl
          | some b => rw [hg] at hc; exact absurd rfl hc
        rcases ht x with e | ⟨bs, e⟩ | ⟨er, e⟩
        · rw [e] at h ⊢
          exact guarded_nodup path tail ht l fs fs' h
        · rw [e] at h ⊢
          obtain ⟨h1, h2⟩ := guarded_nodup path tail ht l (fs.insert (path x) bs) fs' h
          rw [List.cons_append, writesOf, List.nil_append, List.map_cons, List.nodup_cons]
          refine ⟨⟨?_, h1⟩, ?_⟩
          · intro hm
            have := h2 _ hm
            rw [Files.get_insert, if_pos rfl] at this
            cases this
          · intro p hp
            rcases List.mem_cons.1 hp with rfl | hp
            · exact hnone
            · have := h2 p hp
              rw [Files.get_insert] at this
              split at this
              · cases this
              · exact this
        · rw [e] at h
          cases h
    all_goals (intro _ _ h; cases h)

/-! ### The parts of the directory -/

/-- what is in front of the first `/` -/
def headPart (s : Str) : Str := s.takeWhile (· ≠ '/')

/-- files in groups, by the first part of their paths -/
structure Grouped (segs : List (Str × List (Str × Bytes))) : Prop where
  heads : (segs.map (·.1)).Nodup
  nodup : ∀ s ∈ segs, (s.2.map (·.1)).Nodup
  inside : ∀ s ∈ segs, ∀ w ∈ s.2, headPart w.1 = s.1

theorem Grouped.tail {s segs} (h : Grouped (s :: segs)) : Grouped segs :=
  ⟨(List.nodup_cons.1 h.heads).2, fun x hx => h.nodup x (List.mem_cons_of_mem _ hx),
   fun x hx => h.inside x (List.mem_cons_of_mem _ hx)⟩

theorem Grouped.mem_head {segs} (h : Grouped segs) {p : Str} (hp : p ∈ (segs.flatMap (·.2)).map (·.1)) :
    headPart p ∈ segs.map (·.1) := by
  obtain ⟨w, hw, rfl⟩ := List.mem_map.1 hp
  obtain ⟨s, hs, hws⟩ := List.mem_flatMap.1 hw
  exact List.mem_map.2 ⟨s, hs, (h.inside s hs w hws).symm⟩

theorem Grouped.all_nodup : ∀ {segs : List (Str × List (Str × Bytes))}, Grouped segs →
    ((segs.flatMap (·.2)).map (·.1)).Nodup
  | [], _ => by simp
  | s :: segs, h => by
    rw [List.flatMap_cons, List.map_append, List.nodup_append]
    refine ⟨h.nodup s List.mem_cons_self, h.tail.all_nodup, ?_⟩
    intro a ha b hb e
    subst e
    obtain ⟨w, hw, rfl⟩ := List.mem_map.1 ha
    have h1 := h.inside s List.mem_cons_self w hw
    have h2 := h.tail.mem_head hb
    rw [h1] at h2
    exact (List.nodup_cons.1 h.heads).1 h2

/-- a path with the head of a group is there only if it is in the group -/
theorem Grouped.mem_group : ∀ {segs : List (Str × List (Str × Bytes))}, Grouped segs →
    ∀ {s : Str × List (Str × Bytes)}, s ∈ segs → ∀ {p : Str}, headPart p = s.1 →
      p ∈ (segs.flatMap (·.2)).map (·.1) → p ∈ s.2.map (·.1)
  | t :: segs, h, s, hs, p, he, hp => by
    rw [List.flatMap_cons, List.map_append, List.mem_append] at hp
    rcases List.mem_cons.1 hs with rfl | hs
    · rcases hp with hp | hp
      · exact hp
      · have := h.tail.mem_head hp
        rw [he] at this
        exact absurd this (List.nodup_cons.1 h.heads).1
    · rcases hp with hp | hp
      · obtain ⟨w, hw, rfl⟩ := List.mem_map.1 hp
        have h1 := h.inside t List.mem_cons_self w hw
        rw [he] at h1
        exact absurd (List.mem_map.2 ⟨s, hs, h1⟩) (List.nodup_cons.1 h.heads).1
      · exact h.tail.mem_group hs he hp

/-- a path in the directory -/
def under (root f : Str) : Str := root ++ '/' :: f

theorem under_inj {root a b : Str} (h : under root a = under root b) : a = b := by
  have := List.append_cancel_left h
  exact (List.cons.inj this).2

theorem joinPath_under {root f : Str} (h : f.head? ≠ some '/') : joinPath root f = under root f := by
  unfold joinPath under
  split
  · exact absurd rfl h
  · simp

theorem under_under (root d f : Str) : under (under root d) f = under root (d ++ '/' :: f) := by
  unfold under; simp

theorem headPart_sub (d f : Str) (h : '/' ∉ d) : headPart (d ++ '/' :: f) = d := by
  unfold headPart
  rw [List.takeWhile_append_of_pos]
  · simp
  · intro a ha
    simp only [ne_eq, decide_not, Bool.not_eq_eq_eq_not, Bool.not_true, decide_eq_false_iff_not]
    rintro rfl; exact h ha

theorem headPart_plain : ∀ {f : Str}, '/' ∉ f → headPart f = f
  | [], _ => rfl
  | c :: f, h => by
    rw [List.mem_cons, not_or] at h
    have hc : c ≠ '/' := fun e => h.1 e.symm
    have ih := headPart_plain h.2
    unfold headPart at ih ⊢
    rw [List.takeWhile_cons_of_pos (by simpa using hc), ih]

/-- not the path of a file that may be beside those of the items: such files have a `-` in their names -/
def NotDerived (f : Str) : Prop := ∀ g, f = "gameitems".toList ++ '/' :: g → '-' ∉ g

/-- what is in the directory after the files of the groups were written to an empty one, but for files that are beside
those of the items -/
structure DirHas (root : Str) (fs : Files) (segs : List (Str × List (Str × Bytes))) : Prop where
  grouped : Grouped segs
  there : ∀ s ∈ segs, ∀ w ∈ s.2, fs.get (under root w.1) = some w.2
  other : ∀ f, NotDerived f → f ∉ (segs.flatMap (·.2)).map (·.1) → fs.get (under root f) = none

theorem dirHas_of {root : Str} {fs : Files} {segs : List (Str × List (Str × Bytes))} (hg : Grouped segs)
    (hf : ∀ f, fs.get (under root f) = none) :
    DirHas root (applyWrites fs ((segs.flatMap (·.2)).map fun w => (under root w.1, w.2))) segs := by
  have hm : ((segs.flatMap (·.2)).map fun w => (under root w.1, w.2)).map (·.1)
      = ((segs.flatMap (·.2)).map (·.1)).map (under root) := by
    rw [List.map_map, List.map_map]; rfl
  refine ⟨hg, ?_, ?_⟩
  · intro s hs w hw
    refine get_applyWrites _ _ _ _ ?_ (List.mem_map.2 ⟨w, List.mem_flatMap.2 ⟨s, hs, hw⟩, rfl⟩)
    rw [hm]
    unfold List.Nodup
    rw [List.pairwise_map]
    exact List.Pairwise.imp (fun hab he => hab (under_inj he)) hg.all_nodup
  · intro f _ h
    rw [get_applyWrites_not, hf]
    rw [hm]
    intro hc
    obtain ⟨g, hg, e⟩ := List.mem_map.1 hc
    exact h (under_inj e ▸ hg)

theorem notDerived_plain {f : Str} (h : '/' ∉ f) : NotDerived f := by
  intro g e
  exact absurd (e ▸ by simp) h

/-- a file of a group that was not written is not there -/
theorem DirHas.absent {root fs segs} (h : DirHas root fs segs) {s : Str × List (Str × Bytes)} (hs : s ∈ segs)
    {f : Str} (hd : NotDerived f) (he : headPart f = s.1) (hf : f ∉ s.2.map (·.1)) : fs.get (under root f) = none :=
  h.other f hd fun hc => hf (h.grouped.mem_group hs he hc)

end Vpin
