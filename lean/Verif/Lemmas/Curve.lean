import Verif.Model.Curve
import Verif.Spec.Curve
import Verif.Lemmas.Polygon
/-
Lemmas about curves through drag points.
-/
namespace Vpin

theorem eachChord_append {P : α → α → Prop} (a : List α) (m : α) (b : List α)
    (h1 : EachChord P (a ++ [m])) (h2 : EachChord P (m :: b)) : EachChord P (a ++ m :: b) := by
  induction a with
  | nil => exact h2
  | cons x a ih =>
    cases a with
    | nil => exact ⟨h1.1, h2⟩
    | cons y a => exact ⟨h1.1, ih h1.2⟩

/-- the recursion common to two and three dimensions -/
def genRec [Arith] {V : Type} (pt : F32 → V) (flat : V → V → V → Bool) :
    Nat → F32 → F32 → V → V → Res (List V)
  | 0, _, _, _, _ => .error .fuel
  | fuel + 1, t1, t2, v1, v2 =>
    let tm := Arith.mul (Arith.add t1 t2) fHalf
    if flat v1 v2 (pt tm) then .ok [v1]
    else match genRec pt flat fuel t1 tm v1 (pt tm) with
      | .error e => .error e
      | .ok a => match genRec pt flat fuel tm t2 (pt tm) v2 with
        | .error e => .error e
        | .ok b => .ok (a ++ b)

section
variable [Arith]

theorem recurse2D_gen (cc : CatmullCurve2D F32) (acc : F32) : ∀ fuel t1 t2 v1 v2,
    recurseSmoothLine2D cc acc fuel t1 t2 v1 v2 =
      genRec cc.vertexAt (fun a b m => flatWithAccuracy2D a b m acc) fuel t1 t2 v1 v2 := by
  intro fuel
  induction fuel with
  | zero => intros; rfl
  | succ n ih =>
    intro t1 t2 v1 v2
    unfold recurseSmoothLine2D genRec
    simp only [ih, bind, Except.bind, pure, Except.pure]
    split
    · rfl
    · generalize genRec _ _ n t1 _ v1 _ = x
      cases x with
      | error e => rfl
      | ok a =>
        dsimp only
        generalize genRec _ _ n _ t2 _ v2 = y
        cases y <;> rfl

theorem recurse3D_gen (cc : CatmullCurve3D F32) (acc : F32) : ∀ fuel t1 t2 v1 v2,
    recurseSmoothLine3D cc acc fuel t1 t2 v1 v2 =
      genRec cc.vertexAt (fun a b m => flatWithAccuracy3D a b m acc) fuel t1 t2 v1 v2 := by
  intro fuel
  induction fuel with
  | zero => intros; rfl
  | succ n ih =>
    intro t1 t2 v1 v2
    unfold recurseSmoothLine3D genRec
    simp only [ih, bind, Except.bind, pure, Except.pure]
    split
    · rfl
    · generalize genRec _ _ n t1 _ v1 _ = x
      cases x with
      | error e => rfl
      | ok a =>
        dsimp only
        generalize genRec _ _ n _ t2 _ v2 = y
        cases y <;> rfl

variable {V : Type} (pt : F32 → V) (flat : V → V → V → Bool)

theorem genRec_spec : ∀ fuel t1 t2 v1 v2 l, genRec pt flat fuel t1 t2 v1 v2 = .ok l →
    ∃ rest, l = v1 :: rest ∧ (∀ v ∈ rest, ∃ t, v = pt t) ∧
      EachChord (fun a b => ∃ t, flat a b (pt t) = true) (l ++ [v2]) := by
  intro fuel
  induction fuel with
  | zero => intro _ _ _ _ _ h; simp [genRec] at h
  | succ n ih =>
    intro t1 t2 v1 v2 l h
    unfold genRec at h
    dsimp only at h
    split at h
    · rename_i hf
      cases h
      exact ⟨[], rfl, by simp, ⟨_, hf⟩, trivial⟩
    · split at h
      · cases h
      · rename_i a ha
        split at h
        · cases h
        · rename_i b hb
          cases h
          obtain ⟨r1, e1, p1, c1⟩ := ih _ _ _ _ _ ha
          obtain ⟨r2, e2, p2, c2⟩ := ih _ _ _ _ _ hb
          subst e1 e2
          refine ⟨r1 ++ (pt _ :: r2), rfl, ?_, ?_⟩
          · intro v hv
            rcases List.mem_append.1 hv with hv | hv
            · exact p1 v hv
            · rcases List.mem_cons.1 hv with hv | hv
              · exact ⟨_, hv⟩
              · exact p2 v hv
          · rw [List.append_assoc]
            exact eachChord_append (v1 :: r1) _ (r2 ++ [v2]) c1 c2

theorem genRec_mono : ∀ fuel fuel' t1 t2 v1 v2 l, fuel ≤ fuel' →
    genRec pt flat fuel t1 t2 v1 v2 = .ok l → genRec pt flat fuel' t1 t2 v1 v2 = .ok l := by
  intro fuel
  induction fuel with
  | zero => intro _ _ _ _ _ _ _ h; simp [genRec] at h
  | succ n ih =>
    intro fuel' t1 t2 v1 v2 l hle h
    obtain ⟨m, rfl⟩ : ∃ m, fuel' = m + 1 := ⟨fuel' - 1, by omega⟩
    unfold genRec at h ⊢
    dsimp only at h ⊢
    split at h
    · rename_i hf; rw [if_pos hf]; exact h
    · rename_i hf
      rw [if_neg hf]
      split at h
      · cases h
      · rename_i a ha
        split at h
        · cases h
        · rename_i b hb
          rw [ih m _ _ _ _ _ (by omega) ha]
          dsimp only
          rw [ih m _ _ _ _ _ (by omega) hb]
          exact h

theorem genRec_err : ∀ fuel t1 t2 v1 v2 e, genRec pt flat fuel t1 t2 v1 v2 = .error e →
    e = .fuel := by
  intro fuel
  induction fuel with
  | zero => intro _ _ _ _ e h; simp [genRec] at h; exact h.symm
  | succ n ih =>
    intro t1 t2 v1 v2 e h
    unfold genRec at h
    dsimp only at h
    split at h
    · cases h
    · split at h
      · rename_i e' ha
        cases h
        exact ih _ _ _ _ _ ha
      · split at h
        · rename_i e' hb
          cases h
          exact ih _ _ _ _ _ hb
        · cases h

/-- if the first vertex is never part of a flat chord, the recursion does not end -/
theorem genRec_endless (v1 : V) (h : ∀ b m, flat v1 b m = false) : ∀ fuel t1 t2 v2,
    genRec pt flat fuel t1 t2 v1 v2 = .error .fuel := by
  intro fuel
  induction fuel with
  | zero => intros; rfl
  | succ n ih =>
    intro t1 t2 v2
    unfold genRec
    dsimp only
    rw [if_neg (by simp [h]), ih]

end

theorem mapM_ok_get {f : α → Res β} : ∀ {l : List α} {out : List β}, l.mapM f = .ok out →
    out.length = l.length ∧ ∀ (i : Nat) a, l[i]? = some a → ∃ b, out[i]? = some b ∧ f a = .ok b := by
  intro l
  induction l with
  | nil => intro out h; cases h; exact ⟨rfl, by simp⟩
  | cons x l ih =>
    intro out h
    rw [List.mapM_cons] at h
    cases hx : f x with
    | error e => simp [hx, bind, Except.bind] at h
    | ok y =>
      cases hl : l.mapM f with
      | error e => simp [hx, hl, bind, Except.bind] at h
      | ok ys =>
        simp [hx, hl, bind, Except.bind, pure, Except.pure] at h
        subst h
        obtain ⟨h1, h2⟩ := ih hl
        refine ⟨by simp [h1], ?_⟩
        intro i a hi
        cases i with
        | zero => simp at hi; subst hi; exact ⟨y, rfl, hx⟩
        | succ i => simpa using h2 i a (by simpa using hi)

theorem mapM_err {f : α → Res β} : ∀ {l : List α} {e}, l.mapM f = .error e →
    ∃ a ∈ l, f a = .error e := by
  intro l
  induction l with
  | nil => intro e h; cases h
  | cons x l ih =>
    intro e h
    rw [List.mapM_cons] at h
    cases hx : f x with
    | error e' => simp [hx, bind, Except.bind] at h; subst h; exact ⟨x, by simp, hx⟩
    | ok y =>
      cases hl : l.mapM f with
      | error e' =>
        simp [hx, hl, bind, Except.bind] at h
        subst h
        obtain ⟨a, ha, hfa⟩ := ih hl
        exact ⟨a, List.mem_cons_of_mem _ ha, hfa⟩
      | ok ys => simp [hx, hl, bind, Except.bind, pure, Except.pure] at h

theorem mapM_congr_ok {f g : α → Res β} : ∀ {l : List α} {out : List β},
    (∀ a ∈ l, ∀ b, f a = .ok b → g a = .ok b) → l.mapM f = .ok out → l.mapM g = .ok out := by
  intro l
  induction l with
  | nil => intro out _ h; exact h
  | cons x l ih =>
    intro out hfg h
    rw [List.mapM_cons] at h ⊢
    cases hx : f x with
    | error e => simp [hx, bind, Except.bind] at h
    | ok y =>
      cases hl : l.mapM f with
      | error e => simp [hx, hl, bind, Except.bind] at h
      | ok ys =>
        rw [hfg x (by simp) y hx, ih (fun a ha => hfg a (List.mem_cons_of_mem _ ha)) hl]
        rw [hx, hl] at h
        exact h

section
variable [Arith]

/-- what one pass of the loop computes, on a piece of the curve -/
theorem rgSegment2D_eq (fuel : Nat) (dps : List DragPoint) (acc : F32) (loop : Bool) (i : Nat)
    (h2 : 2 ≤ dps.length) (hi : i < pieceCount dps loop) :
    ∃ before p q after, PieceOf dps loop i before p q after ∧
      rgSegment2D fuel dps acc loop i =
        if coincide2D p q then .ok []
        else recurseSmoothLine2D (CatmullCurve2D.new (controlVertex2D before) (controlVertex2D p)
            (controlVertex2D q) (controlVertex2D after)) acc fuel 0 f32One (controlVertex2D p)
            (controlVertex2D q) := by
  have hin : i < dps.length := by unfold pieceCount at hi; split at hi <;> omega
  have hio : loop = false → i + 1 < dps.length := by
    intro hl; unfold pieceCount at hi; rw [if_neg (by simp [hl])] at hi; omega
  have hnext : (i + 1) % dps.length < dps.length := Nat.mod_lt _ (by omega)
  obtain ⟨p, hp⟩ : ∃ p, dps[i]? = some p := ⟨_, List.getElem?_eq_getElem hin⟩
  obtain ⟨q, hq⟩ : ∃ q, dps[(i + 1) % dps.length]? = some q := ⟨_, List.getElem?_eq_getElem hnext⟩
  have hq' : (if i + 1 < dps.length then dps[i + 1]? else dps[0]?) = some q := by
    split
    · rename_i h; rwa [Nat.mod_eq_of_lt h] at hq
    · have : i + 1 = dps.length := by omega
      rwa [this, Nat.mod_self] at hq
  have g : ∀ {j : Nat} {v : DragPoint}, dps[j]? = some v → getOrPanic dps j = .ok v := by
    intro j v h; simp [getOrPanic, h]
  -- the point before
  obtain ⟨before, hb, hb'⟩ : ∃ before, dps[(if p.smooth then
        if loop then (i + dps.length - 1) % dps.length else if i > 0 then i - 1 else i
      else i)]? = some before ∧ (if p.smooth && (loop || decide (0 < i)) then
      (if i = 0 then dps.getLast? else dps[i - 1]?) = some before else before = p) := by
    by_cases hs : p.smooth = true
    · rw [if_pos hs]
      cases loop with
      | true =>
        rw [if_pos rfl]
        have hlt : (i + dps.length - 1) % dps.length < dps.length := Nat.mod_lt _ (by omega)
        refine ⟨_, List.getElem?_eq_getElem hlt, ?_⟩
        rw [if_pos (by simp [hs])]
        split
        · rename_i h0
          subst h0
          have : (0 + dps.length - 1) % dps.length = dps.length - 1 := by
            rw [Nat.mod_eq_of_lt (by omega)]; omega
          rw [List.getLast?_eq_getElem?, ← List.getElem?_eq_getElem hlt, this]
        · have : (i + dps.length - 1) % dps.length = i - 1 := by
            have : i + dps.length - 1 = (i - 1) + dps.length := by omega
            rw [this, Nat.add_mod_right, Nat.mod_eq_of_lt (by omega)]
          rw [← List.getElem?_eq_getElem hlt, this]
      | false =>
        rw [if_neg (by simp)]
        by_cases h0 : i > 0
        · rw [if_pos h0]
          have hlt : i - 1 < dps.length := by omega
          refine ⟨_, List.getElem?_eq_getElem hlt, ?_⟩
          rw [if_pos (by simp [hs, h0]), if_neg (by omega), List.getElem?_eq_getElem hlt]
        · rw [if_neg h0]
          exact ⟨p, hp, by rw [if_neg (by simp [h0])]⟩
    · rw [if_neg hs]
      exact ⟨p, hp, by rw [if_neg (by simp [hs])]⟩
  -- the point after
  obtain ⟨after, ha, ha'⟩ : ∃ after, dps[(if loop then (if q.smooth then
        if loop then (i + 2) % dps.length else if i + 2 < dps.length then i + 2 else i + 1
      else (i + 1) % dps.length) else min (if q.smooth then
        if loop then (i + 2) % dps.length else if i + 2 < dps.length then i + 2 else i + 1
      else (i + 1) % dps.length) (dps.length - 1))]? = some after ∧
      (if q.smooth && (loop || decide (i + 2 < dps.length)) then
      (if i + 2 < dps.length then dps[i + 2]? else dps[i + 2 - dps.length]?) = some after
      else after = q) := by
    cases loop with
    | true =>
      simp only [if_true, Bool.true_or, Bool.and_true]
      by_cases hs : q.smooth = true
      · simp only [if_pos hs]
        have hlt : (i + 2) % dps.length < dps.length := Nat.mod_lt _ (by omega)
        refine ⟨_, List.getElem?_eq_getElem hlt, ?_⟩
        rw [← List.getElem?_eq_getElem hlt]
        split
        · rename_i h; rw [Nat.mod_eq_of_lt h]
        · have : (i + 2) % dps.length = i + 2 - dps.length := by
            rw [Nat.mod_eq_sub_mod (by omega), Nat.mod_eq_of_lt (by omega)]
          rw [this]
      · simp only [if_neg hs]
        exact ⟨q, hq, rfl⟩
    | false =>
      have hlt1 := hio rfl
      simp only [Bool.false_eq_true, if_false, Bool.false_or]
      have hq1 : dps[i + 1]? = some q := by rwa [Nat.mod_eq_of_lt hlt1] at hq
      by_cases hs : q.smooth = true
      · rw [if_pos hs]
        by_cases h : i + 2 < dps.length
        · rw [if_pos h]
          have : min (i + 2) (dps.length - 1) = i + 2 := by omega
          rw [this]
          refine ⟨_, List.getElem?_eq_getElem h, ?_⟩
          rw [if_pos (by simp [hs, h]), if_pos h, List.getElem?_eq_getElem h]
        · rw [if_neg h]
          have : min (i + 1) (dps.length - 1) = i + 1 := by omega
          rw [this]
          exact ⟨q, hq1, by rw [if_neg (by simp [h])]⟩
      · rw [if_neg hs]
        rw [Nat.mod_eq_of_lt hlt1]
        have : min (i + 1) (dps.length - 1) = i + 1 := by omega
        rw [this]
        exact ⟨q, hq1, by rw [if_neg (by simp [hs])]⟩
  refine ⟨before, p, q, after, ⟨hp, hq', hb', ha'⟩, ?_⟩
  unfold rgSegment2D
  simp only [g hp, g hq, bind, Except.bind]
  split
  · rfl
  · rw [g hb]
    dsimp only
    rw [g ha]

theorem rgSegment3D_eq (fuel : Nat) (dps : List DragPoint) (acc : F32) (i : Nat)
    (hi : i < pieceCount dps false) :
    ∃ before p q after, PieceOf dps false i before p q after ∧
      rgSegment3D fuel dps acc i =
        if coincide3D p q then .ok []
        else recurseSmoothLine3D (CatmullCurve3D.new (controlVertex3D before) (controlVertex3D p)
            (controlVertex3D q) (controlVertex3D after)) acc fuel 0 f32One (controlVertex3D p)
            (controlVertex3D q) := by
  have hi1 : i + 1 < dps.length := by unfold pieceCount at hi; simp at hi; omega
  have hin : i < dps.length := by omega
  obtain ⟨p, hp⟩ : ∃ p, dps[i]? = some p := ⟨_, List.getElem?_eq_getElem hin⟩
  obtain ⟨q, hq⟩ : ∃ q, dps[i + 1]? = some q := ⟨_, List.getElem?_eq_getElem hi1⟩
  have g : ∀ {j : Nat} {v : DragPoint}, dps[j]? = some v → getOrPanic dps j = .ok v := by
    intro j v h; simp [getOrPanic, h]
  obtain ⟨before, hb, hb'⟩ : ∃ before, dps[(if p.smooth && decide (i > 0) then i - 1 else i)]? =
      some before ∧ (if p.smooth && (false || decide (0 < i)) then
      (if i = 0 then dps.getLast? else dps[i - 1]?) = some before else before = p) := by
    by_cases h : (p.smooth && decide (0 < i)) = true
    · have h0 : 0 < i := by simp at h; exact h.2
      have hlt : i - 1 < dps.length := by omega
      refine ⟨_, by rw [if_pos h]; exact List.getElem?_eq_getElem hlt, ?_⟩
      rw [Bool.false_or, if_pos h, if_neg (by omega), List.getElem?_eq_getElem hlt]
    · exact ⟨p, by rw [if_neg h]; exact hp, by rw [Bool.false_or, if_neg h]⟩
  obtain ⟨after, ha, ha'⟩ : ∃ after, dps[(if q.smooth && decide (i + 2 < dps.length) then i + 2
      else i + 1)]? = some after ∧ (if q.smooth && (false || decide (i + 2 < dps.length)) then
      (if i + 2 < dps.length then dps[i + 2]? else dps[i + 2 - dps.length]?) = some after
      else after = q) := by
    by_cases h : (q.smooth && decide (i + 2 < dps.length)) = true
    · have h0 : i + 2 < dps.length := by simp at h; exact h.2
      refine ⟨_, by rw [if_pos h]; exact List.getElem?_eq_getElem h0, ?_⟩
      rw [Bool.false_or, if_pos h, if_pos h0, List.getElem?_eq_getElem h0]
    · exact ⟨q, by rw [if_neg h]; exact hq, by rw [Bool.false_or, if_neg h]⟩
  refine ⟨before, p, q, after, ⟨hp, by rw [if_pos hi1]; exact hq, hb', ha'⟩, ?_⟩
  unfold rgSegment3D
  simp only [g hp, g hq, bind, Except.bind]
  split
  · rfl
  · rw [g hb]
    dsimp only
    rw [g ha]

end
end Vpin
