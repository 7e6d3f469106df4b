import Verif.Lemmas.Cfb
import Verif.Lemmas.Text
import Verif.Spec.TableInfo
/-!
Lemmas for C21: the table info.
-/
namespace Vpin

theorem TableInfo.Same.refl (a : TableInfo) : a.Same a := ⟨rfl, .refl _⟩
theorem TableInfo.Same.symm {a b : TableInfo} (h : a.Same b) : b.Same a := ⟨h.1.symm, h.2.symm⟩
theorem TableInfo.Same.trans {a b c : TableInfo} (h : a.Same b) (h' : b.Same c) : a.Same c :=
  ⟨h.1.trans h'.1, h.2.trans h'.2⟩

/-- `set` on a text, field by field -/
def TableInfo.put (s : TableInfo) (n v : Str) : TableInfo where
  table_name := if n = "TableName".toList then some v else s.table_name
  author_name := if n = "AuthorName".toList then some v else s.author_name
  screenshot := s.screenshot
  table_blurb := if n = "TableBlurb".toList then some v else s.table_blurb
  table_rules := if n = "TableRules".toList then some v else s.table_rules
  author_email := if n = "AuthorEmail".toList then some v else s.author_email
  release_date := if n = "ReleaseDate".toList then some v else s.release_date
  table_save_rev := if n = "TableSaveRev".toList then some v else s.table_save_rev
  table_version := if n = "TableVersion".toList then some v else s.table_version
  author_website := if n = "AuthorWebSite".toList then some v else s.author_website
  table_save_date := if n = "TableSaveDate".toList then some v else s.table_save_date
  table_description := if n = "TableDescription".toList then some v else s.table_description
  properties := if n ∈ reservedInfo then s.properties else insertProp n v s.properties

theorem TableInfo.set_text {s : TableInfo} {n : Str} {bs : Bytes} {v : Str}
    (h : n ≠ "Screenshot".toList) (hv : decodeUtf16le bs = .ok v) : s.set n bs = .ok (s.put n v) := by
  unfold TableInfo.set TableInfo.put
  rw [if_neg h, hv]
  dsimp only
  by_cases h1 : n = "TableName".toList
  · subst h1; simp [reservedInfo]
  rw [if_neg h1]
  by_cases h2 : n = "AuthorName".toList
  · subst h2; simp [reservedInfo]
  rw [if_neg h2]
  by_cases h3 : n = "TableBlurb".toList
  · subst h3; simp [reservedInfo]
  rw [if_neg h3]
  by_cases h4 : n = "TableRules".toList
  · subst h4; simp [reservedInfo]
  rw [if_neg h4]
  by_cases h5 : n = "AuthorEmail".toList
  · subst h5; simp [reservedInfo]
  rw [if_neg h5]
  by_cases h6 : n = "ReleaseDate".toList
  · subst h6; simp [reservedInfo]
  rw [if_neg h6]
  by_cases h7 : n = "TableSaveRev".toList
  · subst h7; simp [reservedInfo]
  rw [if_neg h7]
  by_cases h8 : n = "TableVersion".toList
  · subst h8; simp [reservedInfo]
  rw [if_neg h8]
  by_cases h9 : n = "AuthorWebSite".toList
  · subst h9; simp [reservedInfo]
  rw [if_neg h9]
  by_cases h10 : n = "TableSaveDate".toList
  · subst h10; simp [reservedInfo]
  rw [if_neg h10]
  by_cases h11 : n = "TableDescription".toList
  · subst h11; simp [reservedInfo]
  rw [if_neg h11]
  have hr : n ∉ reservedInfo := by
    intro hm
    simp only [reservedInfo, List.mem_cons, List.not_mem_nil, or_false] at hm
    simp_all
  rw [if_neg h1, if_neg h2, if_neg h3, if_neg h4, if_neg h5, if_neg h6, if_neg h7, if_neg h8,
    if_neg h9, if_neg h10, if_neg h11, if_neg hr]


theorem TableInfo.set_err {s : TableInfo} {n : Str} {bs : Bytes} {e : Err}
    (h : n ≠ "Screenshot".toList) (hv : decodeUtf16le bs = .error e) : s.set n bs = .error .io := by
  unfold TableInfo.set
  rw [if_neg h, hv]

theorem insertProp_perm {k v : Str} {a b : List (Str × Str)} (h : a.Perm b) :
    (insertProp k v a).Perm (insertProp k v b) := (h.filter _).append_right _

theorem insertProp_comm {k k' : Str} (h : k ≠ k') (v v' : Str) (l : List (Str × Str)) :
    (insertProp k v (insertProp k' v' l)).Perm (insertProp k' v' (insertProp k v l)) := by
  unfold insertProp
  simp only [List.filter_append, List.filter_filter]
  have e1 : List.filter (fun e : Str × Str => decide (e.1 ≠ k)) [(k', v')] = [(k', v')] := by
    simp [Ne.symm h]
  have e2 : List.filter (fun e : Str × Str => decide (e.1 ≠ k')) [(k, v)] = [(k, v)] := by
    simp [h]
  rw [e1, e2]
  have e3 : List.filter (fun e : Str × Str => decide (e.1 ≠ k) && decide (e.1 ≠ k')) l =
      List.filter (fun e : Str × Str => decide (e.1 ≠ k') && decide (e.1 ≠ k)) l := by
    congr 1; funext e; exact Bool.and_comm _ _
  rw [e3, List.append_assoc, List.append_assoc]
  exact (List.Perm.swap _ _ _).append_left _

theorem TableInfo.Same.put {a b : TableInfo} (h : a.Same b) (n v : Str) : (a.put n v).Same (b.put n v) := by
  obtain ⟨h1, h2⟩ := h
  simp only [TableInfo.mk.injEq, and_true] at h1
  obtain ⟨e1, e2, e3, e4, e5, e6, e7, e8, e9, e10, e11, e12⟩ := h1
  refine ⟨?_, ?_⟩
  · simp only [TableInfo.put, e1, e2, e3, e4, e5, e6, e7, e8, e9, e10, e11, e12]
  · simp only [TableInfo.put]
    split
    · exact h2
    · exact insertProp_perm h2

theorem TableInfo.put_comm {n m : Str} (h : n ≠ m) (v w : Str) (s : TableInfo) :
    ((s.put n v).put m w).Same ((s.put m w).put n v) := by
  have aux : ∀ (X : Str) (o : Option Str),
      (if m = X then some w else if n = X then some v else o) =
      (if n = X then some v else if m = X then some w else o) := by
    intro X o
    by_cases h1 : m = X
    · rw [if_pos h1, if_neg (fun h2 => h (h2.trans h1.symm)), if_pos h1]
    · rw [if_neg h1, if_neg h1]
  refine ⟨?_, ?_⟩
  · simp only [TableInfo.put, aux]
  · simp only [TableInfo.put]
    by_cases h1 : m ∈ reservedInfo
    · simp [h1]
    · by_cases h2 : n ∈ reservedInfo
      · simp [h1, h2]
      · simp only [h1, h2, if_false]
        exact insertProp_comm (Ne.symm h) _ _ _

theorem TableInfo.Same.shot {a b : TableInfo} (h : a.Same b) (x : Option Bytes) :
    TableInfo.Same { a with screenshot := x } { b with screenshot := x } := by
  obtain ⟨h1, h2⟩ := h
  simp only [TableInfo.mk.injEq, and_true] at h1
  obtain ⟨e1, e2, e3, e4, e5, e6, e7, e8, e9, e10, e11, e12⟩ := h1
  exact ⟨by simp only [e1, e2, e4, e5, e6, e7, e8, e9, e10, e11, e12], h2⟩

/-- results of reading are compared up to `Same` -/
def SameRes (a b : Res TableInfo) : Prop :=
  match a with
  | .ok x => ∃ y, b = .ok y ∧ x.Same y
  | .error e => b = .error e

theorem TableInfo.set_same {a b : TableInfo} (h : a.Same b) (n : Str) (bs : Bytes) :
    SameRes (a.set n bs) (b.set n bs) := by
  by_cases hn : n = "Screenshot".toList
  · subst hn
    exact ⟨_, by unfold TableInfo.set; rw [if_pos rfl], h.shot (some bs)⟩
  · cases hd : decodeUtf16le bs with
    | error e => rw [set_err hn hd, set_err hn hd]; rfl
    | ok v => rw [set_text hn hd, set_text hn hd]; exact ⟨_, rfl, h.put n v⟩

theorem SameRes.refl (a : Res TableInfo) : SameRes a a := by
  cases a with
  | error e => rfl
  | ok x => exact ⟨x, rfl, .refl x⟩

theorem SameRes.trans {a b c : Res TableInfo} (h : SameRes a b) (h' : SameRes b c) : SameRes a c := by
  cases a with
  | error e => have h : b = _ := h; subst h; exact h'
  | ok x =>
    obtain ⟨y, rfl, hy⟩ := h
    obtain ⟨z, rfl, hz⟩ := h'
    exact ⟨z, rfl, hy.trans hz⟩

theorem TableInfo.setAll_same : ∀ (l : List (Str × Entry)) {a b : TableInfo}, a.Same b →
    SameRes (TableInfo.setAll l a) (TableInfo.setAll l b)
  | [], a, b, h => ⟨b, rfl, h⟩
  | (_, .storage) :: rest, a, b, h => by
    simp only [TableInfo.setAll]
    exact TableInfo.setAll_same rest h
  | (n, .stream bs) :: rest, a, b, h => by
    simp only [TableInfo.setAll]
    have := TableInfo.set_same h n bs
    cases ha : a.set n bs with
    | error e => rw [ha] at this; have this : b.set n bs = _ := this; rw [this]; rfl
    | ok x =>
      rw [ha] at this
      obtain ⟨y, hy, hs⟩ := this
      rw [hy]
      exact TableInfo.setAll_same rest hs

/-- entries that are all streams whose reading succeeds may be reordered -/
theorem TableInfo.setAll_perm {l l' : List (Str × Entry)} (h : l.Perm l') :
    (l.map (·.1)).Nodup → ∀ (a : TableInfo) (r : TableInfo), TableInfo.setAll l a = .ok r →
      ∃ r', TableInfo.setAll l' a = .ok r' ∧ r.Same r' := by
  induction h with
  | nil => intro _ a r hr; exact ⟨r, hr, .refl r⟩
  | cons x _ ih =>
    intro hn a r hr
    obtain ⟨n, e⟩ := x
    have hn' := (List.nodup_cons.1 hn).2
    cases e with
    | storage => exact ih hn' a r hr
    | stream bs =>
      simp only [TableInfo.setAll] at hr ⊢
      cases ha : a.set n bs with
      | error e => rw [ha] at hr; cases hr
      | ok y => rw [ha] at hr; exact ih hn' y r hr
  | swap x y l =>
    intro hn a r hr
    obtain ⟨n, e⟩ := x
    obtain ⟨m, e'⟩ := y
    have hne : m ≠ n := by
      intro h'
      simp only [List.map_cons, List.nodup_cons, List.mem_cons] at hn
      exact hn.1 (Or.inl h')
    have fin : ∀ {s t : TableInfo}, s.Same t → TableInfo.setAll l s = .ok r →
        ∃ r', TableInfo.setAll l t = .ok r' ∧ r.Same r' := by
      intro s t hs hr
      have := TableInfo.setAll_same l hs
      rw [hr] at this
      exact this
    cases e with
    | storage => exact ⟨r, by cases e' <;> exact hr, .refl r⟩
    | stream bs =>
      cases e' with
      | storage => exact ⟨r, hr, .refl r⟩
      | stream bs' =>
        simp only [TableInfo.setAll] at hr ⊢
        by_cases hm : m = "Screenshot".toList
        · subst hm
          have e1 : ∀ s : TableInfo, s.set "Screenshot".toList bs' = .ok { s with screenshot := some bs' } :=
            fun s => by unfold TableInfo.set; rw [if_pos rfl]
          rw [e1] at hr
          cases hd : decodeUtf16le bs with
          | error e =>
            have := set_err (s := { a with screenshot := some bs' }) (Ne.symm hne) hd
            simp only [bind, Except.bind, this] at hr
            cases hr
          | ok v =>
            have h2 := set_text (s := { a with screenshot := some bs' }) (Ne.symm hne) hd
            simp only [bind, Except.bind, h2] at hr
            simp only [bind, Except.bind, set_text (s := a) (Ne.symm hne) hd, e1]
            exact ⟨r, hr, .refl r⟩
        · cases hd' : decodeUtf16le bs' with
          | error e =>
            simp only [bind, Except.bind, set_err (s := a) hm hd'] at hr
            cases hr
          | ok w =>
            by_cases hx : n = "Screenshot".toList
            · subst hx
              have e1 : ∀ s : TableInfo, s.set "Screenshot".toList bs = .ok { s with screenshot := some bs } :=
                fun s => by unfold TableInfo.set; rw [if_pos rfl]
              have h2 := set_text (s := { a with screenshot := some bs }) hm hd'
              simp only [bind, Except.bind, set_text (s := a) hm hd', e1] at hr
              simp only [bind, Except.bind, e1, h2]
              exact ⟨r, hr, .refl r⟩
            · cases hd : decodeUtf16le bs with
              | error e =>
                simp only [bind, Except.bind, set_text (s := a) hm hd', set_err (s := a.put m w) hx hd] at hr
                cases hr
              | ok v =>
                simp only [bind, Except.bind, set_text (s := a) hm hd', set_text (s := a.put m w) hx hd] at hr
                simp only [bind, Except.bind, set_text (s := a) hx hd, set_text (s := a.put n v) hm hd']
                exact fin (TableInfo.put_comm hne w v a) hr
  | trans h1 _ ih1 ih2 =>
    intro hn a r hr
    obtain ⟨r1, h3, h4⟩ := ih1 hn a r hr
    obtain ⟨r2, h5, h6⟩ := ih2 ((h1.map _).nodup_iff.1 hn) a r1 h3
    exact ⟨r2, h5, h4.trans h6⟩

/-! ### paths -/

theorem splitSlash_plain {s : Str} (h : '/' ∉ s) : splitSlash s = [s] := by
  induction s with
  | nil => rfl
  | cons c cs ih =>
    simp only [List.mem_cons, not_or] at h
    unfold splitSlash
    rw [if_neg (Ne.symm h.1), ih h.2]

theorem splitSlash_append {a b : Str} (h : '/' ∉ a) : splitSlash (a ++ '/' :: b) = a :: splitSlash b := by
  induction a with
  | nil => simp [splitSlash]
  | cons c cs ih =>
    simp only [List.mem_cons, not_or] at h
    rw [List.cons_append]
    conv => lhs; unfold splitSlash
    rw [if_neg (Ne.symm h.1), ih h.2]

theorem PlainName.noSlash {s : Str} (h : PlainName s) : '/' ∉ s := by
  intro hm
  have := h.1
  simp only [validName, Bool.and_eq_true, List.all_eq_true] at this
  have := this.2 _ hm
  simp at this

theorem PlainName.ne_nil {s : Str} (h : PlainName s) : s ≠ [] := by
  rintro rfl
  have := h.1
  simp [validName] at this

theorem chainFrom_plain {acc : Path} {w : Str} {ws : List Str} (h1 : w ≠ []) (h2 : w ≠ ['.'])
    (h3 : w ≠ ['.', '.']) : chainFrom acc (w :: ws) = chainFrom (acc ++ [w]) ws := by
  conv => lhs; unfold chainFrom
  rw [if_neg (by simp [h1, h2]), if_neg h3]

theorem pathOf_info {k : Str} (h1 : '/' ∉ k) (h2 : k ≠ []) (h3 : k ≠ ['.']) (h4 : k ≠ ['.', '.']) :
    pathOf (infoStg ++ ['/'] ++ k) = some [infoStg, k] := by
  unfold pathOf
  rw [List.append_assoc, List.singleton_append, splitSlash_append (by decide), splitSlash_plain h1,
    chainFrom_plain (by decide) (by decide) (by decide), chainFrom_plain h2 h3 h4]
  rfl

theorem pathOf_join {k : Str} (h : PlainName k) :
    pathOf (joinPath ('/' :: infoStg) k) = some [infoStg, k] := by
  have : joinPath ('/' :: infoStg) k = [] ++ '/' :: (infoStg ++ '/' :: k) := by
    unfold joinPath
    split
    · next hk => exact absurd (List.mem_cons_self ..) h.noSlash
    · simp
  unfold pathOf
  rw [this, splitSlash_append (by simp), splitSlash_append (by decide), splitSlash_plain h.noSlash]
  unfold chainFrom
  rw [if_pos (Or.inl rfl), chainFrom_plain (by decide) (by decide) (by decide),
    chainFrom_plain h.ne_nil h.2.1 h.2.2]
  rfl

/-! ### writing -/

variable {L : CfbLib}

/-- streams below `TableInfo` -/
def infoEntries (l : List (Str × Bytes)) : Cfb := l.map fun x => ([infoStg, x.1], .stream x.2)

theorem infoKey_ne {n m : Str} (h : L.fold n ≠ L.fold m) : L.key [infoStg, n] ≠ L.key [infoStg, m] := by
  intro h'
  simp [CfbLib.key] at h'
  exact h h'

/-- the state in which more streams can be added below `TableInfo` -/
structure InfoFresh (L : CfbLib) (c : Cfb) (names : List Str) : Prop where
  stg : c.get L [infoStg] = some .storage
  fresh : ∀ n ∈ names, c.get L [infoStg, n] = none
  distinct : (names.map L.fold).Nodup

theorem InfoFresh.step {c : Cfb} {n : Str} {names : List Str} (h : InfoFresh L c (n :: names)) (bs : Bytes) :
    InfoFresh L (c ++ [([infoStg, n], .stream bs)]) names := by
  refine ⟨Cfb.get_append_some h.stg, ?_, (List.nodup_cons.1 h.distinct).2⟩
  intro m hm
  rw [Cfb.get_append_one (h.fresh n (by simp)), if_neg]
  · exact h.fresh m (List.mem_cons_of_mem _ hm)
  · apply infoKey_ne
    intro h'
    refine (List.nodup_cons.1 h.distinct).1 ?_
    rw [← h']
    exact List.mem_map_of_mem hm

theorem InfoFresh.skip {c : Cfb} {n : Str} {names : List Str} (h : InfoFresh L c (n :: names)) :
    InfoFresh L c names :=
  ⟨h.stg, fun m hm => h.fresh m (List.mem_cons_of_mem _ hm), (List.nodup_cons.1 h.distinct).2⟩

/-- the fixed fields that are present -/
def present (l : List (Str × Option Bytes)) : List (Str × Bytes) :=
  l.filterMap fun x => x.2.map fun b => (x.1, b)

theorem writeKnown_ok : ∀ (l : List (Str × Option Bytes)) (c : Cfb) (more : List Str),
    InfoFresh L c (l.map (·.1) ++ more) → (∀ x ∈ l, validName x.1 = true) →
    writeKnown L l c = .ok (c ++ infoEntries (present l)) ∧
      InfoFresh L (c ++ infoEntries (present l)) more
  | [], c, more, h, _ => by simpa [writeKnown, infoEntries, present] using h
  | (n, none) :: rest, c, more, h, hv => by
    have := writeKnown_ok rest c more h.skip fun x hx => hv x (List.mem_cons_of_mem _ hx)
    simpa [writeKnown, present] using this
  | (n, some bs) :: rest, c, more, h, hv => by
    have e : c.createStream L [infoStg, n] bs = .ok (c ++ [([infoStg, n], .stream bs)]) :=
      Cfb.createStream_fresh (d := [infoStg]) bs (h.fresh n (by simp)) h.stg (hv (n, some bs) (by simp))
    have := writeKnown_ok rest _ more (h.step bs) fun x hx => hv x (List.mem_cons_of_mem _ hx)
    have e2 : c ++ [([infoStg, n], .stream bs)] ++ infoEntries (present rest) =
        c ++ infoEntries (present ((n, some bs) :: rest)) := by
      simp [infoEntries, present]
    rw [e2] at this
    refine ⟨?_, this.2⟩
    simp only [writeKnown, e]
    exact this.1

theorem writeProps_ok : ∀ (l : List (Str × Str)) (c : Cfb),
    InfoFresh L c (l.map (·.1)) → (∀ x ∈ l, PlainName x.1) →
    writeProps L l c = .ok (c ++ infoEntries (l.map fun x => (x.1, encodeUtf16le x.2)))
  | [], c, h, _ => by simp [writeProps, infoEntries]
  | (n, v) :: rest, c, h, hv => by
    have hn : PlainName n := hv (n, v) (by simp)
    have e : c.createStream L [infoStg, n] (encodeUtf16le v) =
        .ok (c ++ [([infoStg, n], .stream (encodeUtf16le v))]) :=
      Cfb.createStream_fresh (d := [infoStg]) _ (h.fresh n (by simp)) h.stg hn.1
    have := writeProps_ok rest _ (h.step (encodeUtf16le v)) fun x hx => hv x (List.mem_cons_of_mem _ hx)
    have e3 : c.createAt L (joinPath ('/' :: infoStg) n) (encodeUtf16le v) =
        .ok (c ++ [([infoStg, n], .stream (encodeUtf16le v))]) := by
      unfold Cfb.createAt
      rw [pathOf_join hn]
      exact e
    simp only [writeProps, e3]
    refine this.trans ?_
    simp [infoEntries]

/-- everything written below `TableInfo` -/
def TableInfo.streams (s : TableInfo) : List (Str × Bytes) :=
  present s.known ++ s.properties.map fun x => (x.1, encodeUtf16le x.2)

theorem known_names (s : TableInfo) : s.known.map (·.1) = reservedInfo := rfl

theorem TableInfo.write_ok {s : TableInfo} (h : s.WF L) {c : Cfb} (h0 : c.get L [infoStg] = none)
    (h1 : ∀ n, c.get L [infoStg, n] = none) :
    s.write L c = .ok (c ++ [([infoStg], .storage)] ++ infoEntries s.streams) := by
  have e1 : c.createStorage L [infoStg] = .ok (c ++ [([infoStg], .storage)]) :=
    Cfb.createStorage_fresh (d := []) h0 (Cfb.get_root c) (by decide)
  have hf : InfoFresh L (c ++ [([infoStg], .storage)]) (s.known.map (·.1) ++ s.properties.map (·.1)) := by
    refine ⟨?_, ?_, ?_⟩
    · rw [Cfb.get_append_one h0, if_pos rfl]
    · intro n _
      rw [Cfb.get_append_one h0, if_neg, h1 n]
      intro h'
      have := congrArg List.length h'
      simp [CfbLib.key] at this
    · rw [known_names]; exact h.distinct
  have e2 := writeKnown_ok s.known _ _ hf (by
    intro x hx
    have : x.1 ∈ reservedInfo := by rw [← known_names s]; exact List.mem_map_of_mem hx
    revert this
    generalize x.1 = y
    revert y
    simp only [reservedInfo, List.forall_mem_cons]
    refine ⟨by decide, by decide, by decide, by decide, by decide, by decide, by decide, by decide,
      by decide, by decide, by decide, by decide, by simp⟩)
  have e3 := writeProps_ok s.properties _ e2.2 h.plain
  unfold TableInfo.write
  rw [e1]
  show (writeKnown L s.known _ >>= _) = _
  rw [e2.1]
  refine e3.trans ?_
  simp [infoEntries, TableInfo.streams]

/-! ### reading -/

theorem setAll_text {s0 : TableInfo} {n : Str} (o : Option Str) {f : Option Str → TableInfo}
    (hn : n ≠ "Screenshot".toList) (h0 : f none = s0) (h : ∀ v, s0.put n v = f (some v))
    {rest : List (Str × Option Bytes)} {more : List (Str × Entry)} :
    TableInfo.setAll ((present ((n, o.map encodeUtf16le) :: rest)).map (fun x => (x.1, .stream x.2)) ++ more) s0 =
      TableInfo.setAll ((present rest).map (fun x => (x.1, .stream x.2)) ++ more) (f o) := by
  cases o with
  | none => rw [h0]; rfl
  | some v =>
    have e := TableInfo.set_text (s := s0) hn (decode_encode_utf16le v)
    rw [h v] at e
    show (s0.set n (encodeUtf16le v) >>= _) = _
    rw [e]
    rfl

theorem setAll_shot {s0 : TableInfo} (o : Option Bytes) (h0 : s0.screenshot = none)
    {rest : List (Str × Option Bytes)} {more : List (Str × Entry)} :
    TableInfo.setAll ((present (("Screenshot".toList, o) :: rest)).map (fun x => (x.1, .stream x.2)) ++ more) s0 =
      TableInfo.setAll ((present rest).map (fun x => (x.1, .stream x.2)) ++ more) { s0 with screenshot := o } := by
  cases o with
  | none =>
    have e : { s0 with screenshot := none } = s0 := by rw [← h0]
    rw [e]; rfl
  | some v =>
    have e : s0.set "Screenshot".toList v = .ok { s0 with screenshot := some v } := by
      unfold TableInfo.set; rw [if_pos rfl]
    show (s0.set "Screenshot".toList v >>= _) = _
    rw [e]
    rfl

theorem setAll_props : ∀ (l : List (Str × Str)) (s0 : TableInfo), (∀ x ∈ l, x.1 ∉ reservedInfo) →
    (l.map (·.1)).Nodup → (∀ x ∈ l, ∀ y ∈ s0.properties, y.1 ≠ x.1) →
    TableInfo.setAll (l.map fun x => (x.1, .stream (encodeUtf16le x.2))) s0 =
      .ok { s0 with properties := s0.properties ++ l }
  | [], s0, _, _, _ => by simp [TableInfo.setAll]
  | (k, v) :: rest, s0, h1, h2, h3 => by
    have hk := h1 (k, v) (by simp)
    have hs : k ≠ "Screenshot".toList := by
      intro h'
      refine hk ?_
      show k ∈ reservedInfo
      rw [h']
      decide
    have hp : s0.put k v = { s0 with properties := s0.properties ++ [(k, v)] } := by
      have hne : ∀ X ∈ reservedInfo, k ≠ X := by
        rintro X hX rfl; exact hk hX
      have hi : insertProp k v s0.properties = s0.properties ++ [(k, v)] := by
        unfold insertProp
        rw [List.filter_eq_self.2]
        intro y hy
        simpa using h3 (k, v) (by simp) y hy
      simp only [reservedInfo, List.forall_mem_cons] at hne
      obtain ⟨a1, a2, a3, a4, a5, a6, a7, a8, a9, a10, a11, a12, -⟩ := hne
      unfold TableInfo.put
      rw [if_neg a1, if_neg a2, if_neg a4, if_neg a5, if_neg a6, if_neg a7, if_neg a8, if_neg a9,
        if_neg a10, if_neg a11, if_neg a12, if_neg hk, hi]
    have hn := List.nodup_cons.1 h2
    have := setAll_props rest { s0 with properties := s0.properties ++ [(k, v)] }
      (fun x hx => h1 x (List.mem_cons_of_mem _ hx)) hn.2 (by
        intro x hx y hy
        rcases List.mem_append.1 hy with hy | hy
        · exact h3 x (List.mem_cons_of_mem _ hx) y hy
        · simp only [List.mem_singleton] at hy
          subst hy
          intro h'
          refine hn.1 ?_
          show k ∈ _
          rw [show k = x.1 from h']
          exact List.mem_map_of_mem hx)
    simp only [List.map_cons, TableInfo.setAll]
    rw [TableInfo.set_text hs (decode_encode_utf16le v), hp]
    refine this.trans ?_
    simp

theorem TableInfo.WF.notReserved {s : TableInfo} (h : s.WF L) : ∀ x ∈ s.properties, x.1 ∉ reservedInfo := by
  intro x hx hr
  have := h.distinct
  rw [List.map_append, List.nodup_append] at this
  exact this.2.2 (L.fold x.1) (List.mem_map_of_mem hr) (L.fold x.1)
    (List.mem_map_of_mem (List.mem_map_of_mem (f := (·.1)) hx)) rfl

theorem nodup_of_map {α β : Type} {f : α → β} : ∀ {l : List α}, (l.map f).Nodup → l.Nodup
  | [], _ => .nil
  | x :: xs, h => by
    rw [List.map_cons, List.nodup_cons] at h
    exact List.nodup_cons.2 ⟨fun hm => h.1 (List.mem_map_of_mem hm), nodup_of_map h.2⟩

theorem TableInfo.setAll_streams {s : TableInfo} (h : s.WF L) :
    TableInfo.setAll (s.streams.map fun x => (x.1, .stream x.2)) TableInfo.new = .ok s := by
  unfold TableInfo.streams TableInfo.known
  rw [List.map_append, List.map_map]
  have hd := h.distinct
  rw [List.map_append, List.nodup_append] at hd
  let s1 : TableInfo := { TableInfo.new with table_name := s.table_name }
  refine (setAll_text s.table_name (f := fun o => { TableInfo.new with table_name := o })
    (by decide) rfl (fun v => rfl)).trans ?_
  refine (setAll_text s.author_name (f := fun o => { s1 with author_name := o })
    (by decide) rfl (fun v => rfl)).trans ?_
  let s2 : TableInfo := { s1 with author_name := s.author_name }
  refine (setAll_shot (s0 := s2) s.screenshot rfl).trans ?_
  let s3 : TableInfo := { s2 with screenshot := s.screenshot }
  refine (setAll_text s.table_blurb (f := fun o => { s3 with table_blurb := o })
    (by decide) rfl (fun v => rfl)).trans ?_
  let s4 : TableInfo := { s3 with table_blurb := s.table_blurb }
  refine (setAll_text s.table_rules (f := fun o => { s4 with table_rules := o })
    (by decide) rfl (fun v => rfl)).trans ?_
  let s5 : TableInfo := { s4 with table_rules := s.table_rules }
  refine (setAll_text s.author_email (f := fun o => { s5 with author_email := o })
    (by decide) rfl (fun v => rfl)).trans ?_
  let s6 : TableInfo := { s5 with author_email := s.author_email }
  refine (setAll_text s.release_date (f := fun o => { s6 with release_date := o })
    (by decide) rfl (fun v => rfl)).trans ?_
  let s7 : TableInfo := { s6 with release_date := s.release_date }
  refine (setAll_text s.table_save_rev (f := fun o => { s7 with table_save_rev := o })
    (by decide) rfl (fun v => rfl)).trans ?_
  let s8 : TableInfo := { s7 with table_save_rev := s.table_save_rev }
  refine (setAll_text s.table_version (f := fun o => { s8 with table_version := o })
    (by decide) rfl (fun v => rfl)).trans ?_
  let s9 : TableInfo := { s8 with table_version := s.table_version }
  refine (setAll_text s.author_website (f := fun o => { s9 with author_website := o })
    (by decide) rfl (fun v => rfl)).trans ?_
  let s10 : TableInfo := { s9 with author_website := s.author_website }
  refine (setAll_text s.table_save_date (f := fun o => { s10 with table_save_date := o })
    (by decide) rfl (fun v => rfl)).trans ?_
  let s11 : TableInfo := { s10 with table_save_date := s.table_save_date }
  refine (setAll_text s.table_description (f := fun o => { s11 with table_description := o })
    (by decide) rfl (fun v => rfl)).trans ?_
  exact (setAll_props s.properties { s11 with table_description := s.table_description } h.notReserved
    (nodup_of_map hd.2.1) (fun x _ y hy => by cases hy)).trans rfl

theorem streams_names_nodup {s : TableInfo} (h : s.WF L) :
    ((s.streams.map fun x => ((x.1, Entry.stream x.2) : Str × Entry)).map (·.1)).Nodup := by
  rw [List.map_map]
  have hd := nodup_of_map h.distinct
  refine List.Nodup.sublist ?_ hd
  unfold TableInfo.streams
  rw [List.map_append, List.map_map]
  refine List.Sublist.append ?_ (List.Sublist.refl _)
  rw [← known_names s]
  generalize s.known = l
  induction l with
  | nil => exact List.Sublist.refl _
  | cons x xs ih =>
    obtain ⟨n, o⟩ := x
    cases o with
    | none => exact ih.cons _
    | some b => exact ih.cons_cons _

/-- children of `TableInfo` among entries -/
def infoChildren (L : CfbLib) (c : Cfb) : List (Str × Entry) :=
  c.filterMap fun e =>
    match e.1.getLast? with
    | some name => if L.key e.1.dropLast = L.key [infoStg] then some (name, e.2) else none
    | none => none

theorem infoChildren_entries (l : List (Str × Bytes)) :
    infoChildren L (infoEntries l) = l.map fun x => (x.1, .stream x.2) := by
  induction l with
  | nil => rfl
  | cons x xs ih =>
    show infoChildren L (([infoStg, x.1], Entry.stream x.2) :: infoEntries xs) = _
    unfold infoChildren at ih ⊢
    rw [List.filterMap_cons]
    simp only [List.getLast?_cons_cons, List.getLast?_singleton, List.dropLast_cons_cons,
      List.dropLast_singleton, if_true, ih, List.map_cons]

theorem infoChildren_none {c : Cfb} (h : ∀ e ∈ c, L.key e.1.dropLast ≠ L.key [infoStg]) :
    infoChildren L c = [] := by
  unfold infoChildren
  rw [List.filterMap_eq_nil_iff]
  intro e he
  split
  · rw [if_neg (h e he)]
  · rfl

/-- reading the table info of a file in which exactly these streams are below `TableInfo` -/
theorem TableInfo.read_of_children {s : TableInfo} (h : s.WF L) {c : Cfb}
    (hs : c.get L [infoStg] = some .storage)
    (hc : infoChildren L c = s.streams.map fun x => (x.1, .stream x.2)) :
    ∃ s', TableInfo.read L c = .ok s' ∧ s.Same s' := by
  unfold TableInfo.read Cfb.readStorage
  rw [if_pos hs]
  show ∃ s', TableInfo.setAll (L.order (infoChildren L c)) TableInfo.new = .ok s' ∧ _
  rw [hc]
  exact TableInfo.setAll_perm (L.order_perm _).symm (streams_names_nodup h) _ _
    (TableInfo.setAll_streams h)

end Vpin
