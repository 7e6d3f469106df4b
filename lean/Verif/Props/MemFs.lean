import Verif.Spec.MemFs
/-
C39: the in-memory file system.
-/
namespace Vpin

theorem find_filter_ne {α β : Type} [DecidableEq α] [BEq α] [LawfulBEq α] (l : List (α × β)) (a b : α) :
    ((l.filter fun e => e.1 != a).find? fun e => e.1 == b)
      = if a = b then none else l.find? fun e => e.1 == b := by
  induction l with
  | nil => simp
  | cons x xs ih =>
    rw [List.filter_cons]
    by_cases hx : x.1 = a
    · have : (x.1 != a) = false := by simp [hx]
      rw [this, if_neg (by simp), ih]
      by_cases hab : a = b
      · rw [if_pos hab, if_pos hab]
      · rw [if_neg hab, if_neg hab, List.find?_cons]
        have : (x.1 == b) = false := by rw [hx]; simpa using hab
        rw [this]
    · have : (x.1 != a) = true := by simp [hx]
      rw [this, if_pos rfl, List.find?_cons, ih, List.find?_cons]
      by_cases hab : a = b
      · rw [if_pos hab]
        have : (x.1 == b) = false := by rw [← hab]; simpa using hx
        rw [this, if_pos hab]
      · rw [if_neg hab, if_neg hab]

theorem Files.get_insert (fs : Files) (p q : Str) (bs : Bytes) :
    (fs.insert p bs).get q = if p = q then some bs else fs.get q := by
  unfold Files.insert Files.get
  rw [List.find?_cons]
  by_cases h : p = q
  · have : (p == q) = true := by simpa using h
    simp [this, h]
  · have : (p == q) = false := by simpa using h
    simp only [this]
    rw [if_neg h, find_filter_ne, if_neg h]

theorem Files.get_remove (fs : Files) (p q : Str) :
    (fs.remove p).get q = if p = q then none else fs.get q := by
  unfold Files.remove Files.get
  rw [find_filter_ne]
  split <;> rfl

theorem MemFs.writer_cons (fs : Files) (l : List (Nat × MemWriter)) (w v : Nat) (m : MemWriter) :
    MemFs.writer ⟨fs, (v, m) :: l⟩ w = if v = w then some m else MemFs.writer ⟨fs, l⟩ w := by
  unfold MemFs.writer
  rw [List.find?_cons]
  by_cases h : v = w
  · have : (v == w) = true := by simpa using h
    simp [this, h]
  · have : (v == w) = false := by simpa using h
    simp only [this]
    rw [if_neg h]

theorem MemFs.writer_drop (s : MemFs) (fs : Files) (w v : Nat) :
    MemFs.writer ⟨fs, s.dropWriter v⟩ w = if v = w then none else s.writer w := by
  unfold MemFs.dropWriter MemFs.writer
  dsimp only
  rw [find_filter_ne]
  split <;> rfl

/-- what the state and the history have to do with each other -/
structure MemFs.Inv (s : MemFs) (past : List FsOp) : Prop where
  files : ∀ p, s.files.get p = Content p past
  writers : ∀ w, s.writer w = (Written w past).map fun x => ⟨x.1, x.2⟩

theorem MemFs.Inv.step {s s' : MemFs} {past : List FsOp} {op : FsOp} (h : s.Inv past) (hs : s.step op = some s') :
    s'.Inv (op :: past) := by
  have wr := h.writers
  have fl := h.files
  cases op with
  | createFile w p =>
    simp only [MemFs.step] at hs
    split at hs
    · cases hs
    · cases hs
      refine ⟨fun q => fl q, fun v => ?_⟩
      rw [MemFs.writer_cons]
      unfold Written
      split
      · rfl
      · exact wr v
  | write w bs =>
    simp only [MemFs.step] at hs
    split at hs
    · cases hs
    · next m hm =>
      cases hs
      refine ⟨fun q => fl q, fun v => ?_⟩
      rw [MemFs.writer_cons, MemFs.writer_drop]
      unfold Written
      split
      · next hv =>
        subst hv
        rw [wr] at hm
        obtain ⟨x, hx, rfl⟩ := Option.map_eq_some_iff.1 hm
        rw [hx]; rfl
      · next hv => exact wr v
  | flush w =>
    simp only [MemFs.step] at hs
    split at hs
    · cases hs
    · next m hm =>
      cases hs
      rw [wr] at hm
      obtain ⟨x, hx, rfl⟩ := Option.map_eq_some_iff.1 hm
      refine ⟨fun q => ?_, fun v => wr v⟩
      rw [Files.get_insert]
      unfold Content
      rw [hx]
      dsimp only
      rw [fl q]
  | drop w =>
    simp only [MemFs.step] at hs
    split at hs
    · cases hs
    · next m hm =>
      cases hs
      have hm' := hm
      rw [wr] at hm'
      obtain ⟨x, hx, rfl⟩ := Option.map_eq_some_iff.1 hm'
      refine ⟨fun q => ?_, fun v => ?_⟩
      · rw [Files.get_insert]
        unfold Content
        rw [hx]
        dsimp only
        rw [fl q]
      · rw [MemFs.writer_drop]
        unfold Written
        split
        · rfl
        · exact wr v
  | writeFile p bs =>
    cases hs
    refine ⟨fun q => ?_, fun v => wr v⟩
    rw [Files.get_insert, fl q]
    rfl
  | createDirAll p =>
    cases hs
    exact ⟨fun q => fl q, fun v => wr v⟩
  | delete p =>
    cases hs
    refine ⟨fun q => ?_, fun v => wr v⟩
    rw [Files.get_remove, fl q]
    rfl
  | clear =>
    cases hs
    exact ⟨fun q => rfl, fun v => wr v⟩

theorem MemFs.Inv.run {ops : List FsOp} : ∀ {s s' : MemFs} {past : List FsOp}, s.Inv past →
    MemFs.run ops s = some s' → s'.Inv (ops.reverse ++ past) := by
  induction ops with
  | nil => intro s s' past h hr; cases hr; exact h
  | cons op ops ih =>
    intro s s' past h hr
    unfold MemFs.run at hr
    split at hr
    · cases hr
    · next s1 h1 =>
      have := ih (h.step h1) hr
      rwa [List.reverse_cons, List.append_assoc]

theorem MemFs.empty_inv : MemFs.empty.Inv [] := ⟨fun _ => rfl, fun _ => rfl⟩

/-- **C39.** After every history of calls, reading a path gives exactly what the latest completed write to it
wrote; it fails, and the path does not exist and is not listed, exactly if there was none (or the file was
deleted since). -/
theorem C39_latest_write (ops : List FsOp) (s : MemFs) (h : MemFs.run ops MemFs.empty = some s) (p : Str) :
    (∀ bs, s.readFile p = .ok bs ↔ Content p ops.reverse = some bs) ∧
    (s.readFile p = .error .io ↔ Content p ops.reverse = none) ∧
    (s.exists p = true ↔ ∃ bs, Content p ops.reverse = some bs) ∧
    (p ∈ s.listFiles ↔ ∃ bs, Content p ops.reverse = some bs) := by
  have hi := MemFs.empty_inv.run h
  rw [List.append_nil] at hi
  have hf := hi.files p
  unfold MemFs.readFile MemFs.exists MemFs.listFiles
  rw [← hf]
  refine ⟨?_, ?_, ?_, ?_⟩
  · intro bs
    cases s.files.get p <;> simp
  · cases s.files.get p <;> simp
  · cases s.files.get p <;> simp
  · unfold Files.get
    constructor
    · intro hm
      obtain ⟨e, he, rfl⟩ := List.mem_map.1 hm
      cases hx : s.files.find? fun x => x.1 == e.1 with
      | none =>
        have := List.find?_eq_none.1 hx e he
        simp at this
      | some x => exact ⟨x.2, rfl⟩
    · rintro ⟨bs, hb⟩
      obtain ⟨x, hx, rfl⟩ := Option.map_eq_some_iff.1 hb
      have h2 : x.1 = p := by simpa using List.find?_some hx
      exact List.mem_map.2 ⟨x, List.mem_of_find?_eq_some hx, h2⟩

/-- **C39.** What is written through a writer is not visible before it is flushed or dropped: creating a writer
and writing through it changes no file. -/
theorem C39_unflushed_invisible (s s' : MemFs) (op : FsOp)
    (hop : (∃ w p, op = .createFile w p) ∨ ∃ w bs, op = .write w bs) (h : s.step op = some s') (p : Str) :
    s'.readFile p = s.readFile p := by
  rcases hop with ⟨w, q, rfl⟩ | ⟨w, bs, rfl⟩ <;>
    (simp only [MemFs.step] at h; split at h <;> cases h <;> rfl)

/-- a history with two writers on the same path, a delete and a write in between -/
def memHistory : List FsOp :=
  [.createFile 0 ['a'], .write 0 [1, 2], .createFile 1 ['a'], .write 1 [7], .flush 0, .writeFile ['b'] [5],
   .write 0 [3], .drop 1, .drop 0, .delete ['b']]

example : ∃ s, MemFs.run memHistory MemFs.empty = some s ∧ s.readFile ['a'] = .ok [1, 2, 3] ∧
    s.exists ['b'] = false := ⟨_, rfl, by decide, by decide⟩

end Vpin
