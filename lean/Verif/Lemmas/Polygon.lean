import Verif.Model.Polygon
import Verif.Lemmas.Surface
/-
Lemmas about polygon triangulation.
-/
namespace Vpin

theorem getOrPanic_ok {l : List α} {i : Nat} (h : i < l.length) :
    getOrPanic l i = .ok l[i] := by
  simp [getOrPanic, List.getElem?_eq_getElem h]

/-- `adv` answers on all polygons with corners below `n` -/
def AdvOk (n : Nat) (adv : List Nat → Nat → Nat → Nat → Nat → Nat → Res Bool) : Prop :=
  ∀ poly, (∀ v ∈ poly, v < n) → ∀ a b c pre post, a < n → b < n → c < n → pre < n → post < n →
    ∃ r, adv poly a b c pre post = .ok r

/-- what a sweep gives: consecutive corners `a`, `b`, `c` of the polygon of which `b` is cut off -/
structure Ear (adv : List Nat → Nat → Nat → Nat → Nat → Nat → Res Bool) (poly : List Nat)
    (t : Tri) (rest : List Nat) : Prop where
  sub : rest.Sublist poly
  split : ∃ a b c l, t = (a, c, b) ∧ (∃ p q, poly = p ++ q ∧ q ++ p = a :: b :: c :: l) ∧
    (∃ p q, rest = p ++ q ∧ q ++ p = a :: c :: l) ∧ ∃ pre post, adv poly a b c pre post = .ok true

theorem ear_split (poly : List Nat) (h3 : 3 ≤ poly.length) (i : Nat) (hi : i < poly.length) :
    ∃ a b c l, poly[i]? = some a ∧
      poly[if i < poly.length - 1 then i + 1 else 0]? = some b ∧
      poly[if i < poly.length - 2 then i + 2 else i + 2 - poly.length]? = some c ∧
      (∃ p q, poly = p ++ q ∧ q ++ p = a :: b :: c :: l) ∧
      (∃ p q, poly.eraseIdx (if i < poly.length - 1 then i + 1 else 0) = p ++ q ∧
        q ++ p = a :: c :: l) := by
  have hd : poly = poly.take i ++ poly.drop i := (List.take_append_drop i poly).symm
  have hlp : (poly.take i).length = i := by simp; omega
  by_cases h1 : i < poly.length - 1
  · -- b directly after a
    have hdrop : ∃ a b r, poly.drop i = a :: b :: r := by
      match h : poly.drop i with
      | [] => have := congrArg List.length h; simp at this; omega
      | [_] => have := congrArg List.length h; simp at this; omega
      | a :: b :: r => exact ⟨a, b, r, rfl⟩
    obtain ⟨a, b, r, hr⟩ := hdrop
    generalize hp : poly.take i = p at *
    rw [hr] at hd
    subst hd
    have hc : ∃ c l, r ++ p = c :: l := by
      match h : r ++ p with
      | [] =>
        have := congrArg List.length h
        rw [List.length_append, List.length_nil] at this
        simp only [List.length_append, List.length_cons] at h3
        omega
      | c :: l => exact ⟨c, l, rfl⟩
    obtain ⟨c, l, hcl⟩ := hc
    refine ⟨a, b, c, l, ?_, ?_, ?_, ⟨p, a :: b :: r, rfl, by simp [hcl]⟩,
      ⟨p, a :: r, ?_, by simp [hcl]⟩⟩
    · rw [← hlp]; simp
    · rw [if_pos h1, ← hlp]; simp
    · simp only [List.length_append, List.length_cons] at h1 ⊢
      by_cases h2 : i < p.length + (r.length + 1 + 1) - 2
      · rw [if_pos h2]
        cases r with
        | nil => simp at h2; omega
        | cons c' r =>
          simp at hcl
          rw [← hlp, hcl.1]; simp
      · rw [if_neg h2]
        have hr0 : r = [] := by
          cases r with
          | nil => rfl
          | cons _ _ => simp at h2; omega
        subst hr0
        simp at hcl
        subst hcl
        have : i + 2 - ((c :: l).length + (([] : List Nat).length + 1 + 1)) = 0 := by simp at hlp ⊢; omega
        rw [this]; simp
    · rw [if_pos h1, ← hlp, List.eraseIdx_append_of_length_le (by omega)]
      have : p.length + 1 - p.length = 1 := by omega
      rw [this]; rfl
  · -- a is the last corner, b the first one
    have hi' : i = poly.length - 1 := by omega
    match poly, h3 with
    | b :: c :: x :: m, _ =>
      obtain ⟨z, a, hza⟩ : ∃ z a, x :: m = z ++ [a] :=
        ⟨_, _, (List.dropLast_concat_getLast (l := x :: m) (by simp)).symm⟩
      rw [hza] at hi' h1 ⊢
      have hlen : (b :: c :: (z ++ [a])).length - 1 = z.length + 2 := by simp
      rw [hlen] at hi'
      subst hi'
      refine ⟨a, b, c, z, by simp, ?_, ?_, ⟨b :: c :: z, [a], by simp, by simp⟩,
        ⟨c :: z, [a], ?_, by simp⟩⟩
      · rw [if_neg h1]; rfl
      · rw [if_neg (by simp)]
        have : z.length + 2 + 2 - (b :: c :: (z ++ [a])).length = 1 := by simp
        rw [this]; rfl
      · rw [if_neg h1]; rfl

theorem findEar_ok {n adv} (hadv : AdvOk n adv) (poly : List Nat) (h3 : 3 ≤ poly.length)
    (hn : ∀ v ∈ poly, v < n) :
    ∀ k i, i + k = poly.length → ∃ r, findEar adv poly k i = .ok r ∧
      ∀ t rest, r = some (t, rest) → Ear adv poly t rest := by
  intro k
  induction k with
  | zero => intro i _; exact ⟨none, rfl, by simp⟩
  | succ k ih =>
    intro i hik
    have hi : i < poly.length := by omega
    obtain ⟨a, b, c, l, ha, hb, hc, hp, hr⟩ := ear_split poly h3 i hi
    have hpre : (if i = 0 then poly.length - 1 else i - 1) < poly.length := by split <;> omega
    have hpost : (if i < poly.length - 3 then i + 3 else i + 3 - poly.length) < poly.length := by
      split <;> omega
    unfold findEar
    have g : ∀ j v, poly[j]? = some v → getOrPanic poly j = .ok v ∧ v < n := by
      intro j v h
      refine ⟨by simp [getOrPanic, h], hn v (List.mem_of_getElem? h)⟩
    obtain ⟨pre, hpre'⟩ : ∃ v, poly[(if i = 0 then poly.length - 1 else i - 1)]? = some v :=
      ⟨_, List.getElem?_eq_getElem hpre⟩
    obtain ⟨post, hpost'⟩ : ∃ v,
        poly[(if i < poly.length - 3 then i + 3 else i + 3 - poly.length)]? = some v :=
      ⟨_, List.getElem?_eq_getElem hpost⟩
    obtain ⟨e, he⟩ := hadv poly hn a b c pre post (g _ _ ha).2 (g _ _ hb).2 (g _ _ hc).2
      (g _ _ hpre').2 (g _ _ hpost').2
    simp only [if_neg (show ¬ poly.length < 3 by omega), (g _ _ ha).1, (g _ _ hb).1, (g _ _ hc).1,
      (g _ _ hpre').1, (g _ _ hpost').1, he, bind, Except.bind, pure, Except.pure]
    cases e with
    | false => exact ih (i + 1) (by omega)
    | true =>
      refine ⟨_, rfl, ?_⟩
      intro t rest ht
      cases ht
      exact ⟨List.eraseIdx_sublist _ _, a, b, c, l, rfl, hp, hr, pre, post, he⟩

/-- the loop: what has been cut off and what remains -/
structure Clipped (n : Nat) (adv : List Nat → Nat → Nat → Nat → Nat → Nat → Res Bool)
    (poly : List Nat) (k : Nat) (ts : List Tri) (rest : List Nat) : Prop where
  count : ts.length ≤ k
  sub : rest.Sublist poly
  len : rest.length + ts.length = poly.length
  corners : ∀ t ∈ ts, t.1 ∈ poly ∧ t.2.1 ∈ poly ∧ t.2.2 ∈ poly
  proper : ∀ t ∈ ts, t.Proper
  tested : ∀ t ∈ ts, ∃ p pre post, adv p t.1 t.2.2 t.2.1 pre post = .ok true
  sum : ∀ f, Antisym f → esum f (triEdges ts) + esum f (loopEdges poly) = esum f (loopEdges rest)
  nodup : (triEdges ts).Nodup
  inner : ∀ e ∈ triEdges ts, e ∉ loopEdges poly

theorem mem_triEdges_corners {ts : List Tri} {P : Nat → Prop}
    (h : ∀ t ∈ ts, P t.1 ∧ P t.2.1 ∧ P t.2.2) {e} (he : e ∈ triEdges ts) : P e.1 ∧ P e.2 := by
  simp only [triEdges, List.mem_flatMap] at he
  obtain ⟨t, ht, he⟩ := he
  have := h t ht
  simp only [Tri.edges, List.mem_cons, List.not_mem_nil, or_false] at he
  rcases he with he | he | he <;> subst he <;> simp [this]

theorem clipEars_ok {n adv} (hadv : AdvOk n adv) :
    ∀ k poly, k + 2 ≤ poly.length → poly.Nodup → (∀ v ∈ poly, v < n) →
      ∃ ts rest, clipEars adv k poly = .ok ts ∧ Clipped n adv poly k ts rest := by
  intro k
  induction k with
  | zero =>
    intro poly _ _ _
    exact ⟨[], poly, rfl, by simp, List.Sublist.refl _, by simp, by simp, by simp, by simp,
      by intro f _; simp [triEdges, esum_nil], by simp [triEdges], by simp [triEdges]⟩
  | succ k ih =>
    intro poly hk hnd hn
    obtain ⟨r, hr, hear⟩ := findEar_ok hadv poly (by omega) hn poly.length 0 (by omega)
    unfold clipEars
    simp only [hr, bind, Except.bind]
    match r with
    | none =>
      exact ⟨[], poly, rfl, by simp, List.Sublist.refl _, by simp, by simp, by simp, by simp,
        by intro f _; simp [triEdges, esum_nil], by simp [triEdges], by simp [triEdges]⟩
    | some (t, poly') =>
      obtain ⟨hsub, a, b, c, l, ht, ⟨p, q, hpq, hqp⟩, ⟨p', q', hpq', hqp'⟩, pre, post, hadv'⟩ :=
        hear t poly' rfl
      have hperm : poly.Perm (a :: b :: c :: l) := by
        rw [hpq, ← hqp]; exact List.perm_append_comm
      have hperm' : poly'.Perm (a :: c :: l) := by
        rw [hpq', ← hqp']; exact List.perm_append_comm
      have hE : (loopEdges poly).Perm ((a, b) :: (b, c) :: pathEdges (c :: (l ++ [a]))) := by
        have := loopEdges_rot q p
        rw [← hpq, hqp, loopEdges_cons] at this
        exact this
      have hE' : (loopEdges poly').Perm ((a, c) :: pathEdges (c :: (l ++ [a]))) := by
        have := loopEdges_rot q' p'
        rw [← hpq', hqp', loopEdges_cons] at this
        exact this
      have hlen := hperm.length_eq
      have hlen' := hperm'.length_eq
      simp at hlen hlen'
      obtain ⟨ts, rest, hts, hc⟩ := ih poly' (by omega) (hsub.nodup hnd)
        (fun v hv => hn v (hsub.subset hv))
      have hnd' := hperm.nodup_iff.1 hnd
      simp only [List.nodup_cons, List.mem_cons, not_or] at hnd'
      obtain ⟨⟨hab, hac, hal⟩, ⟨hbc, hbl⟩, hcl, -⟩ := hnd'
      have hb' : b ∉ poly' := by
        rw [hperm'.mem_iff]
        simp only [List.mem_cons, not_or]
        exact ⟨fun h => hab h.symm, hbc, hbl⟩
      have ma : a ∈ poly := hperm.mem_iff.2 (by simp)
      have mb : b ∈ poly := hperm.mem_iff.2 (by simp)
      have mc : c ∈ poly := hperm.mem_iff.2 (by simp)
      have hcorner : ∀ e ∈ triEdges ts, e.1 ∈ poly' ∧ e.2 ∈ poly' :=
        fun e he => mem_triEdges_corners hc.corners he
      dsimp only
      rw [hts]
      refine ⟨t :: ts, rest, rfl, ?_⟩
      subst ht
      constructor
      · simp; exact hc.count
      · exact hc.sub.trans hsub
      · have := hc.len; simp; omega
      · intro t ht
        rcases List.mem_cons.1 ht with rfl | ht
        · exact ⟨ma, mc, mb⟩
        · have := hc.corners t ht
          exact ⟨hsub.subset this.1, hsub.subset this.2.1, hsub.subset this.2.2⟩
      · intro t ht
        rcases List.mem_cons.1 ht with rfl | ht
        · exact ⟨hac, fun h => hbc h.symm, fun h => hab h.symm⟩
        · exact hc.proper t ht
      · intro t ht
        rcases List.mem_cons.1 ht with rfl | ht
        · exact ⟨poly, pre, post, hadv'⟩
        · exact hc.tested t ht
      · intro f hf
        have h1 := hc.sum f hf
        rw [esum_perm f hE'] at h1
        rw [esum_perm f hE, triEdges_cons, esum_append]
        simp only [Tri.edges, esum_cons, esum_nil] at h1 ⊢
        have e1 := hf a c; have e2 := hf c b; have e3 := hf b a
        have e4 := hf a b; have e5 := hf b c
        omega
      · rw [triEdges_cons, List.nodup_append]
        refine ⟨?_, hc.nodup, ?_⟩
        · simp only [Tri.edges, List.nodup_cons, List.mem_cons, List.not_mem_nil, or_false,
            Prod.mk.injEq, not_or, List.nodup_nil, and_true, not_false_eq_true]
          exact ⟨⟨fun h => hac h.1, fun h => hab h.1⟩, fun h => hbc h.1.symm⟩
        · intro e he e' he' heq
          subst heq
          simp only [Tri.edges, List.mem_cons, List.not_mem_nil, or_false] at he
          rcases he with he | he | he
          · subst he
            exact hc.inner _ he' (hE'.mem_iff.2 (by simp))
          · subst he; exact hb' (hcorner _ he').2
          · subst he; exact hb' (hcorner _ he').1
      · intro e he hmem
        rw [triEdges_cons, List.mem_append] at he
        rw [hE.mem_iff, List.mem_cons, List.mem_cons] at hmem
        rcases he with he | he
        · simp only [Tri.edges, List.mem_cons, List.not_mem_nil, or_false] at he
          have hp1 : ∀ {e}, e ∈ pathEdges (c :: (l ++ [a])) → e.1 = c ∨ e.1 ∈ l := by
            intro e h
            have := mem_pathEdges_fst (l := c :: l) (z := a) h
            simpa using this
          have hp2 : ∀ {e}, e ∈ pathEdges (c :: (l ++ [a])) → e.2 ∈ l ∨ e.2 = a := by
            intro e h
            have := mem_pathEdges_snd h
            simpa using this
          rcases he with he | he | he <;> subst he
          · rcases hmem with h | h | h
            · simp only [Prod.mk.injEq] at h; exact hbc h.2.symm
            · simp only [Prod.mk.injEq] at h; exact hab h.1
            · rcases hp1 h with h | h
              · exact hac h
              · exact hal h
          · rcases hmem with h | h | h
            · simp only [Prod.mk.injEq] at h; exact hac h.1.symm
            · simp only [Prod.mk.injEq] at h; exact hbc h.1.symm
            · rcases hp2 h with h | h
              · exact hbl h
              · exact hab h.symm
          · rcases hmem with h | h | h
            · simp only [Prod.mk.injEq] at h; exact hab h.1.symm
            · simp only [Prod.mk.injEq] at h; exact hac h.2
            · rcases hp1 h with h | h
              · exact hbc h
              · exact hbl h
        · have hcr := hcorner e he
          rcases hmem with h | h | h
          · subst h; exact hb' hcr.2
          · subst h; exact hb' hcr.1
          · exact hc.inner e he (hE'.mem_iff.2 (List.mem_cons_of_mem _ h))

variable [Arith]

theorem wallEdgesClear_ok (rgv : List (F32 × F32)) (vpoly : List Nat)
    (h : ∀ v ∈ vpoly, v < rgv.length) (p1 p3 : F32 × F32) :
    ∀ k i, i + k ≤ vpoly.length → ∃ r, wallEdgesClear rgv vpoly p1 p3 k i = .ok r := by
  intro k
  induction k with
  | zero => intro i _; exact ⟨_, rfl⟩
  | succ k ih =>
    intro i hi
    have hj : (if i < vpoly.length - 1 then i + 1 else 0) < vpoly.length := by split <;> omega
    unfold wallEdgesClear
    generalize (if i < vpoly.length - 1 then i + 1 else 0) = j at hj ⊢
    simp only [getOrPanic_ok (show i < vpoly.length by omega), getOrPanic_ok hj,
      getOrPanic_ok (h _ (List.getElem_mem (show i < vpoly.length by omega))),
      getOrPanic_ok (h _ (List.getElem_mem hj)), bind, Except.bind]
    split
    · exact ih (i + 1) (by omega)
    · split
      · exact ih (i + 1) (by omega)
      · split
        · exact ⟨_, rfl⟩
        · exact ih (i + 1) (by omega)

theorem wallAdvance_ok (rgv : List (F32 × F32)) : AdvOk rgv.length (wallAdvance rgv) := by
  intro poly hp a b c pre post ha hb hc hpre hpost
  unfold wallAdvance
  simp only [getOrPanic_ok ha, getOrPanic_ok hb, getOrPanic_ok hc, getOrPanic_ok hpre,
    getOrPanic_ok hpost, bind, Except.bind]
  split
  · exact ⟨_, rfl⟩
  · exact wallEdgesClear_ok rgv poly hp _ _ _ _ (by omega)

theorem polyEdgesClear_ok (vs : List RenderVertex2D) (vpoly : List Nat)
    (h : ∀ v ∈ vpoly, v < vs.length) (a c : Nat) (p1 p3 : F32 × F32) :
    ∀ k i, i + k ≤ vpoly.length → ∃ r, polyEdgesClear vs vpoly a c p1 p3 k i = .ok r := by
  intro k
  induction k with
  | zero => intro i _; exact ⟨_, rfl⟩
  | succ k ih =>
    intro i hi
    have hj : (if i < vpoly.length - 1 then i + 1 else 0) < vpoly.length := by split <;> omega
    unfold polyEdgesClear
    generalize (if i < vpoly.length - 1 then i + 1 else 0) = j at hj ⊢
    simp only [getOrPanic_ok (show i < vpoly.length by omega), getOrPanic_ok hj,
      getOrPanic_ok (h _ (List.getElem_mem (show i < vpoly.length by omega))),
      getOrPanic_ok (h _ (List.getElem_mem hj)), bind, Except.bind]
    split
    · exact ih (i + 1) (by omega)
    · split
      · exact ih (i + 1) (by omega)
      · split
        · exact ⟨_, rfl⟩
        · exact ih (i + 1) (by omega)

theorem polyAdvance_ok (vs : List RenderVertex2D) : AdvOk vs.length (polyAdvance vs) := by
  intro poly hp a b c pre post ha hb hc hpre hpost
  unfold polyAdvance
  simp only [getOrPanic_ok ha, getOrPanic_ok hb, getOrPanic_ok hc, getOrPanic_ok hpre,
    getOrPanic_ok hpost, bind, Except.bind]
  split
  · exact ⟨_, rfl⟩
  · exact polyEdgesClear_ok vs poly hp _ _ _ _ _ _ (by omega)

theorem findCornerVertex_lt (vs : List RenderVertex2D) (h : vs ≠ []) :
    findCornerVertex vs < vs.length := by
  have key : ∀ (l : List RenderVertex2D) (i best : Nat) (minY minX : F32), best < i ∨ best = 0 →
      let r := l.foldl (fun (i, best, minY, minX) v =>
        if Arith.lt minY v.y then (i + 1, best, minY, minX)
        else if (Arith.eq v.y minY) && Arith.le minX v.x then (i + 1, best, minY, minX)
        else (i + 1, i, v.y, v.x)) (i, best, minY, minX)
      r.2.1 < i + l.length ∨ r.2.1 = 0 := by
    intro l
    induction l with
    | nil => intro i best _ _ hb; simpa using hb
    | cons v l ih =>
      intro i best minY minX hb
      simp only [List.foldl_cons, List.length_cons]
      split
      · have := ih (i + 1) best minY minX (by omega); dsimp only at this; omega
      · split
        · have := ih (i + 1) best minY minX (by omega); dsimp only at this; omega
        · have := ih (i + 1) i v.y v.x (by omega); dsimp only at this; omega
  have : findCornerVertex vs < 0 + vs.length ∨ findCornerVertex vs = 0 :=
    key vs 0 0 fMax fMax (Or.inr rfl)
  have hl : 0 < vs.length := List.length_pos_iff.2 h
  omega

theorem isClockwise_ok (vs : List RenderVertex2D) : ∃ r, isClockwise vs = .ok r := by
  unfold isClockwise
  by_cases h : vs.length < 3
  · simp only [if_pos h]; exact ⟨false, rfl⟩
  · have hne : vs ≠ [] := by intro e; simp [e] at h
    simp only [if_neg h, getOrPanic_ok (findCornerVertex_lt vs hne),
      getOrPanic_ok (Nat.mod_lt _ (show 0 < vs.length by omega)), bind, Except.bind, pure, Except.pure]
    exact ⟨_, rfl⟩

/-- an accepted ear does not turn the wrong way -/
theorem wallAdvance_true {rgv : List (F32 × F32)} {p a b c pre post}
    (h : wallAdvance rgv p a b c pre post = .ok true) :
    ∃ pa pb pc, rgv[a]? = some pa ∧ rgv[b]? = some pb ∧ rgv[c]? = some pc ∧
      Arith.lt (dot2d pa pb pc) 0 = false := by
  unfold wallAdvance at h
  have g : ∀ j, (∃ v, rgv[j]? = some v ∧ getOrPanic rgv j = .ok v) ∨
      getOrPanic rgv j = .error .panic := by
    intro j
    cases hj : rgv[j]? with
    | none => right; simp [getOrPanic, hj]
    | some v => left; exact ⟨v, rfl, by simp [getOrPanic, hj]⟩
  rcases g a with ⟨pa, ha, ga⟩ | ga
  · rcases g b with ⟨pb, hb, gb⟩ | gb
    · rcases g c with ⟨pc, hc, gc⟩ | gc
      · rcases g pre with ⟨pp, -, gp⟩ | gp
        · rcases g post with ⟨pq, -, gq⟩ | gq
          · simp only [ga, gb, gc, gp, gq, bind, Except.bind] at h
            refine ⟨pa, pb, pc, ha, hb, hc, ?_⟩
            cases hd : Arith.lt (dot2d pa pb pc) 0 with
            | false => rfl
            | true => simp [badAngle, hd] at h
          · simp [ga, gb, gc, gp, gq, bind, Except.bind] at h
        · simp [ga, gb, gc, gp, bind, Except.bind] at h
      · simp [ga, gb, gc, bind, Except.bind] at h
    · simp [ga, gb, bind, Except.bind] at h
  · simp [ga, bind, Except.bind] at h

theorem polyAdvance_true {vs : List RenderVertex2D} {p a b c pre post}
    (h : polyAdvance vs p a b c pre post = .ok true) :
    ∃ pa pb pc, vs[a]? = some pa ∧ vs[b]? = some pb ∧ vs[c]? = some pc ∧
      Arith.lt (dot2d pa.xy pb.xy pc.xy) 0 = false := by
  unfold polyAdvance at h
  have g : ∀ j, (∃ v, vs[j]? = some v ∧ getOrPanic vs j = .ok v) ∨
      getOrPanic vs j = .error .panic := by
    intro j
    cases hj : vs[j]? with
    | none => right; simp [getOrPanic, hj]
    | some v => left; exact ⟨v, rfl, by simp [getOrPanic, hj]⟩
  rcases g a with ⟨pa, ha, ga⟩ | ga
  · rcases g b with ⟨pb, hb, gb⟩ | gb
    · rcases g c with ⟨pc, hc, gc⟩ | gc
      · rcases g pre with ⟨pp, -, gp⟩ | gp
        · rcases g post with ⟨pq, -, gq⟩ | gq
          · simp only [ga, gb, gc, gp, gq, bind, Except.bind] at h
            refine ⟨pa, pb, pc, ha, hb, hc, ?_⟩
            cases hd : Arith.lt (dot2d pa.xy pb.xy pc.xy) 0 with
            | false => rfl
            | true => simp [badAngle, hd] at h
          · simp [ga, gb, gc, gp, gq, bind, Except.bind] at h
        · simp [ga, gb, gc, gp, bind, Except.bind] at h
      · simp [ga, gb, gc, bind, Except.bind] at h
    · simp [ga, gb, bind, Except.bind] at h
  · simp [ga, bind, Except.bind] at h

end Vpin
