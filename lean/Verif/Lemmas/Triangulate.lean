import Verif.Spec.Obj
import Verif.Lemmas.Res
/-! Helper lemmas: splitting polygons into triangles and removing repeated corners. -/
namespace Vpin

theorem resolveIndex_iff {i len : Nat} : (∃ r, resolveIndex i len = .ok r) ↔ 1 ≤ i ∧ i ≤ len := by
  unfold resolveIndex
  split
  · constructor
    · rintro ⟨r, h⟩; cases h
    · omega
  · split
    · constructor
      · rintro ⟨r, h⟩; cases h
      · omega
    · exact ⟨fun _ => by omega, fun _ => ⟨_, rfl⟩⟩

theorem resolveIndex_ok {i len r : Nat} (h : resolveIndex i len = .ok r) : r = i - 1 ∧ 1 ≤ i ∧ i ≤ len := by
  refine ⟨?_, resolveIndex_iff.1 ⟨r, h⟩⟩
  unfold resolveIndex at h
  split at h
  · cases h
  · split at h
    · cases h
    · cases h; rfl

theorem resolveCorners_ok {np nt nn : Nat} : ∀ {face : List FaceCorner} {cs : List Corner},
    resolveCorners np nt nn face = .ok cs → cs = face.map (fun c => (c.v - 1, c.vt - 1, c.vn - 1)) ∧
      ∀ c ∈ face, (1 ≤ c.v ∧ c.v ≤ np) ∧ (1 ≤ c.vt ∧ c.vt ≤ nt) ∧ (1 ≤ c.vn ∧ c.vn ≤ nn)
  | [], cs, h => by cases h; exact ⟨rfl, by simp⟩
  | c :: face, cs, h => by
    unfold resolveCorners at h
    obtain ⟨p, h1, h⟩ := Res.unbind h
    obtain ⟨t, h2, h⟩ := Res.unbind h
    obtain ⟨n, h3, h⟩ := Res.unbind h
    obtain ⟨rest, h4, h⟩ := Res.unbind h
    cases h
    obtain ⟨e1, p1⟩ := resolveIndex_ok h1
    obtain ⟨e2, p2⟩ := resolveIndex_ok h2
    obtain ⟨e3, p3⟩ := resolveIndex_ok h3
    obtain ⟨e4, p4⟩ := resolveCorners_ok h4
    refine ⟨by rw [e1, e2, e3, e4]; rfl, ?_⟩
    intro x hx
    rcases List.mem_cons.1 hx with rfl | hx
    · exact ⟨p1, p2, p3⟩
    · exact p4 x hx

theorem resolveCorners_some {np nt nn : Nat} : ∀ {face : List FaceCorner},
    (∀ c ∈ face, (1 ≤ c.v ∧ c.v ≤ np) ∧ (1 ≤ c.vt ∧ c.vt ≤ nt) ∧ (1 ≤ c.vn ∧ c.vn ≤ nn)) →
    ∃ cs, resolveCorners np nt nn face = .ok cs
  | [], _ => ⟨[], rfl⟩
  | c :: face, h => by
    obtain ⟨h1, h2, h3⟩ := h c List.mem_cons_self
    obtain ⟨p, e1⟩ := resolveIndex_iff.2 h1
    obtain ⟨t, e2⟩ := resolveIndex_iff.2 h2
    obtain ⟨n, e3⟩ := resolveIndex_iff.2 h3
    obtain ⟨cs, e4⟩ := resolveCorners_some fun x hx => h x (List.mem_cons_of_mem _ hx)
    refine ⟨(p, t, n) :: cs, ?_⟩
    unfold resolveCorners
    rw [e1, e2, e3, e4]; rfl

theorem resolveIndex_err {i len : Nat} {e : Err} (h : resolveIndex i len = .error e) : e = .io := by
  unfold resolveIndex at h
  split at h
  · cases h; rfl
  · split at h
    · cases h; rfl
    · cases h

theorem resolveCorners_err {np nt nn : Nat} : ∀ {face : List FaceCorner} {e : Err},
    resolveCorners np nt nn face = .error e → e = .io
  | [], e, h => by cases h
  | c :: face, e, h => by
    unfold resolveCorners at h
    cases h1 : resolveIndex c.v np with
    | error e1 => rw [h1] at h; cases h; exact resolveIndex_err h1
    | ok p =>
      cases h2 : resolveIndex c.vt nt with
      | error e1 => rw [h1, h2] at h; cases h; exact resolveIndex_err h2
      | ok t =>
        cases h3 : resolveIndex c.vn nn with
        | error e1 => rw [h1, h2, h3] at h; cases h; exact resolveIndex_err h3
        | ok n =>
          cases h4 : resolveCorners np nt nn face with
          | error e1 => rw [h1, h2, h3, h4] at h; cases h; exact resolveCorners_err h4
          | ok cs => rw [h1, h2, h3, h4] at h; cases h

/-- a triangle with its corners as options -/
def someCorners (t : Corner × Corner × Corner) : Option Corner × Option Corner × Option Corner :=
  (some t.1, some t.2.1, some t.2.2)

theorem neighbours_eq {α : Type} : ∀ (l : List α), (neighbours l).map (fun x => (some x.1, some x.2))
    = (List.range (l.length - 1)).map fun i => (l[i]?, l[i + 1]?)
  | [] => rfl
  | [a] => rfl
  | a :: b :: l => by
    have ih := neighbours_eq (b :: l)
    show (some a, some b) :: (neighbours (b :: l)).map (fun x => (some x.1, some x.2)) = _
    rw [ih]
    have : (a :: b :: l).length - 1 = ((b :: l).length - 1) + 1 := by simp
    rw [this, List.range_succ_eq_map, List.map_cons, List.map_map]
    rfl

theorem fan_eq (cs : List Corner) : (fan cs).map someCorners = fanTriangles cs := by
  cases cs with
  | nil => rfl
  | cons c cs =>
    have h := congrArg (List.map fun x : Option Corner × Option Corner => (some c, x.1, x.2)) (neighbours_eq cs)
    rw [List.map_map, List.map_map] at h
    unfold fan fanTriangles
    rw [List.map_map]
    exact h

theorem triangulate_cons (np nt nn : Nat) (reverse : Bool) (f : List FaceCorner) (faces : List (List FaceCorner)) :
    triangulate np nt nn reverse (f :: faces) = if f.length < 3 then .error .io else
      ((resolveCorners np nt nn f) >>= fun cs => (triangulate np nt nn reverse faces) >>= fun rest =>
        .ok (fan (if reverse then cs.reverse else cs) ++ rest)) := by
  rw [triangulate.eq_2]
  by_cases h : f.length < 3
  · simp only [h, if_true]; rfl
  · simp only [h, if_false]
    cases reverse <;> rfl

theorem triangulate_ok {np nt nn : Nat} {reverse : Bool} : ∀ {faces : List (List FaceCorner)}
    {ts : List (Corner × Corner × Corner)}, triangulate np nt nn reverse faces = .ok ts →
    ts.map someCorners = faces.flatMap (fun f => fanTriangles (faceCorners reverse f)) ∧
      ∀ f ∈ faces, FaceOk np nt nn f
  | [], ts, h => by cases h; exact ⟨rfl, by simp⟩
  | f :: faces, ts, h => by
    rw [triangulate_cons] at h
    split at h
    · cases h
    · next hl =>
      obtain ⟨cs, h1, h⟩ := Res.unbind h
      obtain ⟨rest, h2, h⟩ := Res.unbind h
      cases h
      obtain ⟨e1, p1⟩ := resolveCorners_ok h1
      obtain ⟨e2, p2⟩ := triangulate_ok h2
      refine ⟨?_, ?_⟩
      · rw [List.map_append, fan_eq, e2, List.flatMap_cons, e1]; rfl
      · intro x hx
        rcases List.mem_cons.1 hx with rfl | hx
        · exact ⟨by omega, p1⟩
        · exact p2 x hx

theorem triangulate_some {np nt nn : Nat} {reverse : Bool} : ∀ {faces : List (List FaceCorner)},
    (∀ f ∈ faces, FaceOk np nt nn f) → ∃ ts, triangulate np nt nn reverse faces = .ok ts
  | [], _ => ⟨[], rfl⟩
  | f :: faces, h => by
    obtain ⟨h1, h2⟩ := h f List.mem_cons_self
    obtain ⟨cs, e1⟩ := resolveCorners_some h2
    obtain ⟨ts, e2⟩ := triangulate_some (reverse := reverse) fun x hx => h x (List.mem_cons_of_mem _ hx)
    rw [triangulate_cons]
    rw [if_neg (by omega), e1, e2]
    exact ⟨_, rfl⟩

theorem triangulate_err {np nt nn : Nat} {reverse : Bool} : ∀ {faces : List (List FaceCorner)} {e : Err},
    triangulate np nt nn reverse faces = .error e → e = .io
  | [], e, h => by cases h
  | f :: faces, e, h => by
    rw [triangulate_cons] at h
    split at h
    · cases h; rfl
    · cases h1 : resolveCorners np nt nn f with
      | error e1 => rw [h1] at h; cases h; exact resolveCorners_err h1
      | ok cs =>
        cases h2 : triangulate np nt nn reverse faces with
        | error e1 => rw [h1, h2] at h; cases h; exact triangulate_err h2
        | ok ts => rw [h1, h2] at h; cases h

/-! ### Removing repeated corners -/

theorem cornerIndex_spec {comb comb' : List Corner} {c : Corner} {i : Nat} (hn : comb.Nodup)
    (h : cornerIndex comb c = (i, comb')) : comb'.Nodup ∧ comb'[i]? = some c ∧ comb <+: comb' ∧
      (∀ x, x ∈ comb' ↔ x ∈ comb ∨ x = c) := by
  unfold cornerIndex at h
  split at h
  · next j hj =>
    cases h
    rw [List.findIdx?_eq_some_iff_getElem] at hj
    obtain ⟨hlt, h1, -⟩ := hj
    have h1 : comb[i] = c := eq_of_beq h1
    refine ⟨hn, by rw [List.getElem?_eq_getElem hlt, h1], List.prefix_refl _, ?_⟩
    intro x
    constructor
    · exact Or.inl
    · rintro (hx | rfl)
      · exact hx
      · rw [← h1]; exact List.getElem_mem hlt
  · next hj =>
    cases h
    rw [List.findIdx?_eq_none_iff] at hj
    have hc : c ∉ comb := fun hm => by
      have := hj c hm
      simp at this
    refine ⟨?_, by simp, List.prefix_append _ _, by simp⟩
    rw [List.nodup_append]
    refine ⟨hn, by simp, ?_⟩
    intro a ha b hb
    rw [List.mem_singleton] at hb
    rintro rfl
    exact hc (hb ▸ ha)

theorem prefix_get {comb comb' : List Corner} {i : Nat} {c : Corner} (h : comb <+: comb') (hi : comb[i]? = some c) :
    comb'[i]? = some c := by
  obtain ⟨t, rfl⟩ := h
  rw [List.getElem?_append_left]
  · exact hi
  · exact (List.getElem?_eq_some_iff.1 hi).1

theorem dedup_spec : ∀ (ts : List (Corner × Corner × Corner)) (comb comb' : List Corner) (tris : List (Nat × Nat × Nat)),
    comb.Nodup → dedup comb ts = (comb', tris) → comb'.Nodup ∧ comb <+: comb' ∧
      tris.map (fun t => (comb'[t.1]?, comb'[t.2.1]?, comb'[t.2.2]?)) = ts.map someCorners ∧
      (∀ x, x ∈ comb' ↔ x ∈ comb ∨ ∃ t ∈ ts, x = t.1 ∨ x = t.2.1 ∨ x = t.2.2)
  | [], comb, comb', tris, hn, h => by
    cases h
    exact ⟨hn, List.prefix_refl _, rfl, by simp⟩
  | (a, b, c) :: ts, comb, comb', tris, hn, h => by
    unfold dedup at h
    cases h1 : cornerIndex comb a with
    | mk i c1 =>
      obtain ⟨n1, g1, p1, m1⟩ := cornerIndex_spec hn h1
      cases h2 : cornerIndex c1 b with
      | mk j c2 =>
        obtain ⟨n2, g2, p2, m2⟩ := cornerIndex_spec n1 h2
        cases h3 : cornerIndex c2 c with
        | mk k c3 =>
          obtain ⟨n3, g3, p3, m3⟩ := cornerIndex_spec n2 h3
          cases h4 : dedup c3 ts with
          | mk c4 rest =>
            obtain ⟨n4, p4, e4, m4⟩ := dedup_spec ts c3 c4 rest n3 h4
            rw [h1] at h
            dsimp only at h
            rw [h2] at h
            dsimp only at h
            rw [h3] at h
            dsimp only at h
            rw [h4] at h
            cases h
            refine ⟨n4, p1.trans (p2.trans (p3.trans p4)), ?_, ?_⟩
            · rw [List.map_cons, List.map_cons, e4]
              dsimp only
              rw [prefix_get (p2.trans (p3.trans p4)) g1, prefix_get (p3.trans p4) g2, prefix_get p4 g3]
              rfl
            · intro x
              rw [m4, m3, m2, m1]
              simp only [List.mem_cons, exists_eq_or_imp]
              constructor
              · rintro ((((h | h) | h) | h) | h)
                · exact Or.inl h
                · exact Or.inr (Or.inl (Or.inl h))
                · exact Or.inr (Or.inl (Or.inr (Or.inl h)))
                · exact Or.inr (Or.inl (Or.inr (Or.inr h)))
                · exact Or.inr (Or.inr h)
              · rintro (h | (h | h | h) | h)
                · exact Or.inl (Or.inl (Or.inl (Or.inl h)))
                · exact Or.inl (Or.inl (Or.inl (Or.inr h)))
                · exact Or.inl (Or.inl (Or.inr h))
                · exact Or.inl (Or.inr h)
                · exact Or.inr h

theorem fan_mem {cs : List Corner} {t : Corner × Corner × Corner} (h : t ∈ fan cs) :
    t.1 ∈ cs ∧ t.2.1 ∈ cs ∧ t.2.2 ∈ cs := by
  cases cs with
  | nil => cases h
  | cons c cs =>
    unfold fan at h
    obtain ⟨⟨a, b⟩, h1, rfl⟩ := List.mem_map.1 h
    have : ∀ (l : List Corner) (a b : Corner), (a, b) ∈ neighbours l → a ∈ l ∧ b ∈ l := by
      intro l
      induction l with
      | nil => intro a b h; cases h
      | cons x l ih =>
        intro a b h
        cases l with
        | nil => cases h
        | cons y l =>
          unfold neighbours at h
          rcases List.mem_cons.1 h with h | h
          · cases h; simp
          · obtain ⟨h1, h2⟩ := ih a b h
            exact ⟨List.mem_cons_of_mem _ h1, List.mem_cons_of_mem _ h2⟩
    obtain ⟨h2, h3⟩ := this cs a b h1
    exact ⟨List.mem_cons_self, List.mem_cons_of_mem _ h2, List.mem_cons_of_mem _ h3⟩

theorem triangulate_range {np nt nn : Nat} {reverse : Bool} : ∀ {faces : List (List FaceCorner)}
    {ts : List (Corner × Corner × Corner)}, triangulate np nt nn reverse faces = .ok ts →
    ∀ t ∈ ts, ∀ x, x = t.1 ∨ x = t.2.1 ∨ x = t.2.2 → x.1 < np ∧ x.2.1 < nt ∧ x.2.2 < nn
  | [], ts, h => by cases h; simp
  | f :: faces, ts, h => by
    rw [triangulate_cons] at h
    split at h
    · cases h
    · obtain ⟨cs, h1, h⟩ := Res.unbind h
      obtain ⟨rest, h2, h⟩ := Res.unbind h
      cases h
      obtain ⟨e1, p1⟩ := resolveCorners_ok h1
      have hcs : ∀ x ∈ cs, x.1 < np ∧ x.2.1 < nt ∧ x.2.2 < nn := by
        intro x hx
        rw [e1] at hx
        obtain ⟨c, hc, rfl⟩ := List.mem_map.1 hx
        have := p1 c hc
        dsimp only
        omega
      intro t ht x hx
      rcases List.mem_append.1 ht with ht | ht
      · obtain ⟨f1, f2, f3⟩ := fan_mem ht
        have hmem : ∀ y, y ∈ (if reverse then cs.reverse else cs) → y ∈ cs := by
          intro y hy
          split at hy
          · exact List.mem_reverse.1 hy
          · exact hy
        rcases hx with rfl | rfl | rfl
        · exact hcs _ (hmem _ f1)
        · exact hcs _ (hmem _ f2)
        · exact hcs _ (hmem _ f3)
      · exact triangulate_range h2 t ht x hx

end Vpin

namespace Vpin

/-! ### Collecting the points of the corners, and the whole reader -/

theorem mapM_get_spec {α β : Type} (l : List α) (g : β → Nat) : ∀ (cs : List β) (out : List α),
    cs.mapM (fun c => getOrPanic l (g c)) = .ok out → out.map some = cs.map fun c => l[g c]?
  | [], out, h => by cases h; rfl
  | c :: cs, out, h => by
    rw [List.mapM_cons] at h
    obtain ⟨x, h1, h⟩ := Res.unbind h
    obtain ⟨xs, h2, h⟩ := Res.unbind h
    cases h
    have ih := mapM_get_spec l g cs xs h2
    unfold getOrPanic at h1
    split at h1
    · next y hy =>
      cases h1
      rw [List.map_cons, List.map_cons, hy, ih]
    · cases h1

theorem mapM_get_some {α β : Type} (l : List α) (g : β → Nat) : ∀ (cs : List β), (∀ c ∈ cs, g c < l.length) →
    ∃ out, cs.mapM (fun c => getOrPanic l (g c)) = .ok out
  | [], _ => ⟨[], rfl⟩
  | c :: cs, h => by
    obtain ⟨out, ih⟩ := mapM_get_some l g cs fun x hx => h x (List.mem_cons_of_mem _ hx)
    have hc := h c List.mem_cons_self
    have h1 : getOrPanic l (g c) = .ok l[g c] := by
      unfold getOrPanic
      rw [List.getElem?_eq_getElem hc]
    refine ⟨l[g c] :: out, ?_⟩
    rw [List.mapM_cons, h1, ih]
    rfl

theorem map_some_get {α β : Type} {l : List α} {g : β → Nat} {cs : List β} {out : List α}
    (h : out.map some = cs.map fun c => l[g c]?) (i : Nat) : out[i]? = cs[i]?.bind fun c => l[g c]? := by
  have := congrArg (·[i]?) h
  simp only [List.getElem?_map] at this
  cases h1 : out[i]? <;> cases h2 : cs[i]? <;> rw [h1, h2] at this <;> simp at this
  · rfl
  · simpa using this

theorem number_err {T : FloatText} {s : Str} {e : Err} (h : number T s = .error e) : e = .io := by
  unfold number at h
  split at h <;> cases h
  rfl

theorem Res.bind_err {α β : Type} {x : Res α} {f : α → Res β} {e : Err} (h : (x >>= f) = .error e) :
    x = .error e ∨ ∃ a, x = .ok a ∧ f a = .error e := by
  cases x with
  | error e => cases h; exact Or.inl rfl
  | ok a => exact Or.inr ⟨a, rfl, h⟩

/-- what holds of the reader after every line -/
def ObjReader.Tame (r : ObjReader) : Prop :=
  (∀ c, r.previous = some c → parseVpxComment c ≠ .error .panic) ∧
  (r.normalize = false → ∀ f ∈ r.faces, f.length = 3)

theorem ObjReader.line_tame {T : FloatText} {r : ObjReader} (hr : r.Tame) (l : ObjLine)
    (hl : ∀ s, l = .comment s → parseVpxComment s ≠ .error .panic) :
    (∀ r', r.line T l = .ok r' → r'.Tame) ∧ r.line T l ≠ .error .panic := by
  cases l with
  | comment s =>
    refine ⟨fun r' h => ?_, fun h => by cases h⟩
    cases h
    exact ⟨fun c hc => (Option.some.inj hc) ▸ hl s rfl, hr.2⟩
  | object s =>
    refine ⟨fun r' h => ?_, fun h => by cases h⟩
    cases h
    exact ⟨nofun, hr.2⟩
  | v x y z =>
    refine ⟨fun r' h => ?_, fun h => ?_⟩
    · obtain ⟨x, -, h⟩ := Res.unbind h
      obtain ⟨y, -, h⟩ := Res.unbind h
      obtain ⟨z, -, h⟩ := Res.unbind h
      cases h
      exact ⟨nofun, hr.2⟩
    · rcases Res.bind_err h with h | ⟨x, -, h⟩
      · cases number_err h
      rcases Res.bind_err h with h | ⟨x, -, h⟩
      · cases number_err h
      rcases Res.bind_err h with h | ⟨x, -, h⟩
      · cases number_err h
      cases h
  | vt x y =>
    refine ⟨fun r' h => ?_, fun h => ?_⟩
    · obtain ⟨x, -, h⟩ := Res.unbind h
      obtain ⟨y, -, h⟩ := Res.unbind h
      cases h
      exact ⟨nofun, hr.2⟩
    · rcases Res.bind_err h with h | ⟨x, -, h⟩
      · cases number_err h
      rcases Res.bind_err h with h | ⟨x, -, h⟩
      · cases number_err h
      cases h
  | vn x y z =>
    refine ⟨fun r' h => ?_, fun h => ?_⟩
    · obtain ⟨x, -, h⟩ := Res.unbind h
      obtain ⟨y, -, h⟩ := Res.unbind h
      obtain ⟨z, -, h⟩ := Res.unbind h
      cases hp : r.previous with
      | none => rw [hp] at h; cases h; exact ⟨nofun, hr.2⟩
      | some c =>
        rw [hp] at h
        obtain ⟨b, -, h⟩ := Res.unbind h
        cases h
        exact ⟨nofun, hr.2⟩
    · rcases Res.bind_err h with h | ⟨x, -, h⟩
      · cases number_err h
      rcases Res.bind_err h with h | ⟨x, -, h⟩
      · cases number_err h
      rcases Res.bind_err h with h | ⟨x, -, h⟩
      · cases number_err h
      cases hp : r.previous with
      | none => rw [hp] at h; cases h
      | some c =>
        rw [hp] at h
        rcases Res.bind_err h with h | ⟨x, -, h⟩
        · exact hr.1 c hp h
        · cases h
  | f cs =>
    refine ⟨fun r' h => ?_, fun h => by cases h⟩
    cases h
    refine ⟨nofun, ?_⟩
    intro hn f hf
    have hn := Bool.or_eq_false_iff.1 hn
    rcases List.mem_append.1 hf with hf | hf
    · exact hr.2 hn.1 f hf
    · rw [List.mem_singleton] at hf
      subst hf
      have := hn.2
      simp only [Bool.not_eq_false', Bool.and_eq_true, beq_iff_eq] at this
      exact this.1

theorem ObjReader.lines_tame {T : FloatText} : ∀ (ls : List ObjLine) (r : ObjReader), r.Tame →
    (∀ s, ObjLine.comment s ∈ ls → parseVpxComment s ≠ .error .panic) →
    (∀ r', r.lines T ls = .ok r' → r'.Tame) ∧ r.lines T ls ≠ .error .panic
  | [], r, hr, _ => ⟨fun r' h => by cases h; exact hr, fun h => by cases h⟩
  | l :: ls, r, hr, hl => by
    obtain ⟨h1, h2⟩ := ObjReader.line_tame (T := T) hr l fun s hs => hl s (by rw [hs]; exact List.mem_cons_self)
    have ih := fun r' hr' => ObjReader.lines_tame (T := T) ls r' hr' fun s hs => hl s (List.mem_cons_of_mem _ hs)
    refine ⟨fun r' h => ?_, fun h => ?_⟩
    · obtain ⟨r1, e1, h⟩ := Res.unbind h
      exact (ih r1 (h1 r1 e1)).1 r' h
    · rcases Res.bind_err h with h | ⟨r1, e1, h⟩
      · exact h2 h
      · exact (ih r1 (h1 r1 e1)).2 h

theorem fastFace_some {reverse : Bool} {face : List FaceCorner} (h : face.length = 3) :
    ∃ f, fastFace reverse face = .ok f := by
  match face, h with
  | [a, b, c], _ => cases reverse <;> exact ⟨_, rfl⟩

theorem fastFaces_some {reverse : Bool} : ∀ (faces : List (List FaceCorner)), (∀ f ∈ faces, f.length = 3) →
    ∃ fs, faces.mapM (fastFace reverse) = .ok fs
  | [], _ => ⟨[], rfl⟩
  | f :: faces, h => by
    obtain ⟨g, h1⟩ := fastFace_some (reverse := reverse) (h f List.mem_cons_self)
    obtain ⟨gs, h2⟩ := fastFaces_some (reverse := reverse) faces fun x hx => h x (List.mem_cons_of_mem _ hx)
    exact ⟨g :: gs, by rw [List.mapM_cons, h1, h2]; rfl⟩

theorem readObjData_eq (T : FloatText) (ls : List ObjLine) (reverse : Bool) :
    readObjData T ls reverse = ((ObjReader.lines T {} ls) >>= fun r =>
      if r.objects ≠ 1 then .error .io
      else if r.normalize = true then
        (triangulateAndDedup r.faces r.vertices.length r.texcoords.length r.normals.length reverse) >>= fun ct =>
        (ct.1.mapM fun c => getOrPanic r.vertices c.1) >>= fun vertices =>
        (ct.1.mapM fun c => getOrPanic r.texcoords c.2.1) >>= fun texcoords =>
        (ct.1.mapM fun c => getOrPanic r.normals c.2.2) >>= fun normals =>
        .ok ⟨r.name, vertices, texcoords, normals, ct.2.map fun t => ⟨t.1, t.2.1, t.2.2⟩⟩
      else (r.faces.mapM (fastFace reverse)) >>= fun faces =>
        .ok ⟨r.name, r.vertices, r.texcoords, r.normals, faces⟩) := by
  unfold readObjData
  cases ObjReader.lines T {} ls with
  | error e => rfl
  | ok r =>
    show (if r.objects ≠ 1 then _ else _) = (if r.objects ≠ 1 then _ else _)
    split
    · rfl
    · show (if r.normalize = true then _ else _) = (if r.normalize = true then _ else _)
      split <;> rfl

end Vpin

namespace Vpin

/-- what the lines so far say, against what the reader holds -/
structure ObjReader.Holds (T : FloatText) (r : ObjReader) (ls : List ObjLine) : Prop where
  vertices : r.vertices.map some = objPositions T ls
  texcoords : r.texcoords.map some = objTexcoords T ls
  normals : r.normals.map (fun n => some (n.x, n.y, n.z)) = objNormals T ls
  faces : r.faces = objPolygons ls
  normalize : r.normalize = false ↔ ∀ f ∈ objPolygons ls, PlainTriangle f

theorem number_ok {T : FloatText} {s : Str} {v : F64} (h : number T s = .ok v) : T.parse64 s = some v := by
  unfold number at h
  split at h
  · cases h; assumption
  · cases h

theorem ObjReader.line_holds {T : FloatText} {r r' : ObjReader} {ls : List ObjLine} {l : ObjLine}
    (hr : r.Holds T ls) (h : r.line T l = .ok r') : r'.Holds T (ls ++ [l]) := by
  obtain ⟨h1, h2, h3, h4, h5⟩ := hr
  cases l with
  | comment s =>
    cases h
    constructor
    · simpa [objPositions] using h1
    · simpa [objTexcoords] using h2
    · simpa [objNormals] using h3
    · simpa [objPolygons] using h4
    · simpa [objPolygons] using h5
  | object s =>
    cases h
    constructor
    · simpa [objPositions] using h1
    · simpa [objTexcoords] using h2
    · simpa [objNormals] using h3
    · simpa [objPolygons] using h4
    · simpa [objPolygons] using h5
  | v x y z =>
    obtain ⟨x, hx, h⟩ := Res.unbind h
    obtain ⟨y, hy, h⟩ := Res.unbind h
    obtain ⟨z, hz, h⟩ := Res.unbind h
    cases h
    constructor
    · simp only [List.map_append]; rw [h1]; simp [objPositions, number_ok hx, number_ok hy, number_ok hz]
    · simpa [objTexcoords] using h2
    · simpa [objNormals] using h3
    · simpa [objPolygons] using h4
    · simpa [objPolygons] using h5
  | vt x y =>
    obtain ⟨x, hx, h⟩ := Res.unbind h
    obtain ⟨y, hy, h⟩ := Res.unbind h
    cases h
    constructor
    · simpa [objPositions] using h1
    · simp only [List.map_append]; rw [h2]; simp [objTexcoords, number_ok hx, number_ok hy]
    · simpa [objNormals] using h3
    · simpa [objPolygons] using h4
    · simpa [objPolygons] using h5
  | vn x y z =>
    obtain ⟨x, hx, h⟩ := Res.unbind h
    obtain ⟨y, hy, h⟩ := Res.unbind h
    obtain ⟨z, hz, h⟩ := Res.unbind h
    have : ∃ b, { r with normals := r.normals ++ [⟨x.toF32, y.toF32, z.toF32, b⟩], previous := none } = r' := by
      cases hp : r.previous with
      | none => rw [hp] at h; cases h; exact ⟨_, rfl⟩
      | some c =>
        rw [hp] at h
        obtain ⟨b, -, h⟩ := Res.unbind h
        cases h
        exact ⟨_, rfl⟩
    obtain ⟨b, rfl⟩ := this
    constructor
    · simpa [objPositions] using h1
    · simpa [objTexcoords] using h2
    · simp only [List.map_append]; rw [h3]; simp [objNormals, number_ok hx, number_ok hy, number_ok hz]
    · simpa [objPolygons] using h4
    · simpa [objPolygons] using h5
  | f cs =>
    cases h
    constructor
    · simpa [objPositions] using h1
    · simpa [objTexcoords] using h2
    · simpa [objNormals] using h3
    · show r.faces ++ _ = _
      rw [h4]; simp [objPolygons]
    · have e : objPolygons (ls ++ [.f cs]) = objPolygons ls ++
          [cs.map fun c => FaceCorner.mk c.1 (c.2.1.getD 0) (c.2.2.getD 0)] := by simp [objPolygons]
      rw [e]
      show (r.normalize || !_) = false ↔ _
      rw [Bool.or_eq_false_iff, h5]
      constructor
      · rintro ⟨a, b⟩ f hf
        rcases List.mem_append.1 hf with hf | hf
        · exact a f hf
        · rw [List.mem_singleton] at hf
          subst hf
          simp only [Bool.not_eq_false', Bool.and_eq_true, beq_iff_eq, List.all_eq_true] at b
          exact b
      · intro a
        refine ⟨fun f hf => a f (List.mem_append_left _ hf), ?_⟩
        have := a _ (List.mem_append_right _ (List.mem_singleton.2 rfl))
        simp only [Bool.not_eq_false', Bool.and_eq_true, beq_iff_eq, List.all_eq_true]
        exact this

theorem ObjReader.lines_holds {T : FloatText} : ∀ (ls seen : List ObjLine) (r r' : ObjReader), r.Holds T seen →
    r.lines T ls = .ok r' → r'.Holds T (seen ++ ls)
  | [], seen, r, r', hr, h => by cases h; simpa using hr
  | l :: ls, seen, r, r', hr, h => by
    obtain ⟨r1, e1, h⟩ := Res.unbind h
    have := ObjReader.lines_holds ls (seen ++ [l]) r1 r' (ObjReader.line_holds hr e1) h
    simpa using this

theorem ObjReader.start_holds (T : FloatText) : ObjReader.Holds T {} [] :=
  ⟨rfl, rfl, rfl, rfl, by simp [objPolygons]⟩

end Vpin
