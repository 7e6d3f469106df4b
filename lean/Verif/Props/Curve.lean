import Verif.Lemmas.Curve
/-
C61: the curve through the drag points of a wall, rubber, flasher, light or ramp.

All statements hold for every `[Arith]`.
-/
namespace Vpin

section
variable [Arith]

/-- One piece of a flat curve from drag point `p` to drag point `q`, without its last point: nothing if
the two coincide, else the point `p` itself, then points of the Catmull-Rom spline, such that every
chord passes the flatness test against a point of the spline. -/
def CurvePiece2D (accuracy : F32) (before p q after : DragPoint) (part : List RenderVertex2D) : Prop :=
  if coincide2D p q then part = []
  else
    let spline := CatmullCurve2D.new (controlVertex2D before) (controlVertex2D p) (controlVertex2D q)
      (controlVertex2D after)
    ∃ rest, part = controlVertex2D p :: rest ∧ (∀ v ∈ rest, ∃ t, v = spline.vertexAt t) ∧
      EachChord (fun a b => ∃ t, flatWithAccuracy2D a b (spline.vertexAt t) accuracy = true)
        (part ++ [controlVertex2D q])

/-- **C61**. A computed flat curve consists of one piece for every two neighbouring drag points, in
order (closed curves: also from the last to the first one). -/
theorem C61_curve {fuel dps accuracy closed vv} (h2 : 2 ≤ dps.length)
    (h : getRgVertex2D fuel dps accuracy closed = .ok vv) :
    ∃ parts : List (List RenderVertex2D), vv = parts.flatten ∧ parts.length = pieceCount dps closed ∧
      ∀ i < pieceCount dps closed, ∃ before p q after part, PieceOf dps closed i before p q after ∧
        parts[i]? = some part ∧ CurvePiece2D accuracy before p q after part := by
  unfold getRgVertex2D at h
  simp only [if_neg (show ¬ dps.length < 2 by omega), bind, Except.bind, pure, Except.pure] at h
  split at h
  · cases h
  · rename_i parts hp
    cases h
    obtain ⟨hl, hg⟩ := mapM_ok_get hp
    refine ⟨parts, rfl, by rw [hl]; simp [pieceCount], ?_⟩
    intro i hi
    obtain ⟨part, hpart, hseg⟩ := hg i i (by rw [List.getElem?_range (by exact hi)])
    obtain ⟨before, p, q, after, hpo, heq⟩ := rgSegment2D_eq fuel dps accuracy closed i h2 hi
    refine ⟨before, p, q, after, part, hpo, hpart, ?_⟩
    rw [heq] at hseg
    unfold CurvePiece2D
    split at hseg
    · rename_i hc
      cases hseg
      rw [if_pos hc]
    · rename_i hc
      rw [if_neg hc]
      rw [recurse2D_gen] at hseg
      exact genRec_spec _ _ _ _ _ _ _ _ hseg

/-- every two neighbouring drag points -/
def curvePairs (dps : List DragPoint) (closed : Bool) : List (DragPoint × DragPoint) :=
  if closed then dps.zip (dps.tail ++ dps.take 1) else dps.zip dps.tail

theorem curvePairs_length (dps : List DragPoint) (closed : Bool) :
    (curvePairs dps closed).length = pieceCount dps closed := by
  unfold curvePairs pieceCount
  cases closed
  · simp
  · cases dps with
    | nil => rfl
    | cons a l => simp

theorem curvePairs_get {dps : List DragPoint} {closed : Bool} {i : Nat} {before p q after}
    (h : PieceOf dps closed i before p q after) (hi : i < pieceCount dps closed) :
    (curvePairs dps closed)[i]? = some (p, q) := by
  have hs := h.stop
  unfold curvePairs
  unfold pieceCount at hi
  cases closed with
  | false =>
    simp at hi
    rw [if_pos (by omega)] at hs
    simp [List.getElem?_zip_eq_some, h.start, hs]
  | true =>
    simp only [if_true] at hi ⊢
    rw [List.getElem?_zip_eq_some]
    refine ⟨h.start, ?_⟩
    split at hs
    · rename_i hlt
      rw [List.getElem?_append_left (by simp; omega)]
      simpa using hs
    · have : i = dps.length - 1 := by omega
      subst this
      rw [List.getElem?_append_right (by simp)]
      simp only [List.length_tail, Nat.sub_self]
      cases dps with
      | nil => simp at hs
      | cons a l => simpa using hs

/-- **C61**, control points. The curve passes through the drag points in order, leaving out those that
coincide with the next one; the points in between are marked smooth and not as drag points. -/
theorem C61_control_points {fuel dps accuracy closed vv} (h2 : 2 ≤ dps.length)
    (h : getRgVertex2D fuel dps accuracy closed = .ok vv) :
    vv.filter (·.control_point) =
        ((curvePairs dps closed).filter fun (p, q) => !coincide2D p q).map
          (fun (p, _) => { x := p.x, y := p.y, smooth := p.smooth, control_point := true }) ∧
      ∀ v ∈ vv, v.control_point = false → v.smooth = true := by
  obtain ⟨parts, rfl, hlen, hparts⟩ := C61_curve h2 h
  have key : parts.map (List.filter (·.control_point)) =
      (curvePairs dps closed).map fun (p, q) =>
        if coincide2D p q then [] else [controlVertex2D p] := by
    apply List.ext_getElem?
    intro i
    rw [List.getElem?_map, List.getElem?_map]
    by_cases hi : i < pieceCount dps closed
    · obtain ⟨before, p, q, after, part, hpo, hpart, hcp⟩ := hparts i hi
      rw [hpart, curvePairs_get hpo hi]
      simp only [Option.map_some, Option.some.injEq]
      unfold CurvePiece2D at hcp
      split at hcp
      · rename_i hc; rw [if_pos hc, hcp]; rfl
      · rename_i hc
        rw [if_neg hc]
        obtain ⟨rest, rfl, hr, -⟩ := hcp
        rw [List.filter_cons_of_pos rfl]
        congr 1
        rw [List.filter_eq_nil_iff]
        intro v hv
        obtain ⟨t, rfl⟩ := hr v hv
        simp [CatmullCurve2D.vertexAt]
    · rw [List.getElem?_eq_none (by omega),
        List.getElem?_eq_none (by rw [curvePairs_length]; omega)]
      rfl
  constructor
  · rw [List.filter_flatten, key]
    generalize curvePairs dps closed = l
    induction l with
    | nil => rfl
    | cons x l ih =>
      obtain ⟨p, q⟩ := x
      simp only [List.map_cons, List.flatten_cons, ih]
      by_cases hc : coincide2D p q = true
      · simp [hc]
      · simp [hc, controlVertex2D]
  · intro v hv hvc
    obtain ⟨part, hpart, hv⟩ := List.mem_flatten.1 hv
    obtain ⟨i, hi, rfl⟩ := List.getElem_of_mem hpart
    obtain ⟨before, p, q, after, part, -, hpart', hcp⟩ := hparts i (by omega)
    rw [List.getElem?_eq_getElem hi] at hpart'
    cases hpart'
    unfold CurvePiece2D at hcp
    split at hcp
    · rw [hcp] at hv; simp at hv
    · obtain ⟨rest, he, hr, -⟩ := hcp
      rw [he] at hv
      rcases List.mem_cons.1 hv with rfl | hv
      · simp [controlVertex2D] at hvc
      · obtain ⟨t, rfl⟩ := hr v hv
        rfl

/-- **C61**, no panics: the only way not to give a curve is that the subdivision does not end. -/
theorem C61_no_panic {fuel dps accuracy closed e}
    (h : getRgVertex2D fuel dps accuracy closed = .error e) : e = .fuel := by
  unfold getRgVertex2D at h
  by_cases h2 : dps.length < 2
  · simp only [if_pos h2] at h; cases h
  · simp only [if_neg h2, bind, Except.bind, pure, Except.pure] at h
    split at h
    · rename_i e' he
      cases h
      obtain ⟨i, hi, hf⟩ := mapM_err he
      have hi' : i < pieceCount dps closed := by simpa [pieceCount] using hi
      obtain ⟨before, p, q, after, -, heq⟩ := rgSegment2D_eq fuel dps accuracy closed i (by omega) hi'
      rw [heq] at hf
      split at hf
      · cases hf
      · rw [recurse2D_gen] at hf
        exact genRec_err _ _ _ _ _ _ _ _ hf
    · cases h

/-- **C61**, the bound on the recursion does not matter: a curve that is finished stays the same. -/
theorem C61_fuel {fuel fuel' dps accuracy closed vv} (hle : fuel ≤ fuel')
    (h : getRgVertex2D fuel dps accuracy closed = .ok vv) :
    getRgVertex2D fuel' dps accuracy closed = .ok vv := by
  unfold getRgVertex2D at h ⊢
  by_cases h2 : dps.length < 2
  · simp only [if_pos h2] at h ⊢; exact h
  · simp only [if_neg h2, bind, Except.bind, pure, Except.pure] at h ⊢
    split at h
    · cases h
    · rename_i parts hp
      rw [mapM_congr_ok (g := rgSegment2D fuel' dps accuracy closed) ?_ hp]
      · exact h
      · intro i hi b hb
        have hi' : i < pieceCount dps closed := by simpa [pieceCount] using hi
        obtain ⟨before, p, q, after, hpo, heq⟩ :=
          rgSegment2D_eq fuel dps accuracy closed i (by omega) hi'
        obtain ⟨before', p', q', after', hpo', heq'⟩ :=
          rgSegment2D_eq fuel' dps accuracy closed i (by omega) hi'
        have hp := hpo.start.symm.trans hpo'.start
        have hq := hpo.stop.symm.trans hpo'.stop
        cases hp; cases hq
        have hbe : before = before' := by
          have h1 := hpo.before; have h2 := hpo'.before
          split at h1
          · rename_i hc; rw [if_pos hc] at h2; exact Option.some.inj (h1.symm.trans h2)
          · rename_i hc; rw [if_neg hc] at h2; exact h1.trans h2.symm
        have haf : after = after' := by
          have h1 := hpo.after; have h2 := hpo'.after
          split at h1
          · rename_i hc; rw [if_pos hc] at h2; exact Option.some.inj (h1.symm.trans h2)
          · rename_i hc; rw [if_neg hc] at h2; exact h1.trans h2.symm
        subst hbe haf
        rw [heq'] 
        rw [heq] at hb
        split at hb
        · rename_i hc; rw [if_pos hc]; exact hb
        · rename_i hc
          rw [if_neg hc, recurse2D_gen]
          rw [recurse2D_gen] at hb
          exact genRec_mono _ _ _ _ _ _ _ _ _ hle hb

/-- fewer than two drag points have no curve -/
theorem C61_small {fuel dps accuracy closed} (h : dps.length < 2) :
    getRgVertex2D fuel dps accuracy closed = .ok [] := by
  unfold getRgVertex2D
  simp only [if_pos h]
  rfl

/-- the public function gives the positions of the same points -/
theorem C61_smooth_drag_points {fuel dps accuracy closed} :
    smoothDragPoints2D fuel dps accuracy closed =
      (getRgVertex2D fuel dps accuracy closed).map (List.map fun v => (v.x, v.y)) := by
  unfold smoothDragPoints2D
  cases getRgVertex2D fuel dps accuracy closed <;> rfl

/-- one piece of a ramp's central curve -/
def CurvePiece3D (accuracy : F32) (before p q after : DragPoint) (part : List RenderVertex3D) : Prop :=
  if coincide3D p q then part = []
  else
    let spline := CatmullCurve3D.new (controlVertex3D before) (controlVertex3D p) (controlVertex3D q)
      (controlVertex3D after)
    ∃ rest, part = controlVertex3D p :: rest ∧ (∀ v ∈ rest, ∃ t, v = spline.vertexAt t) ∧
      EachChord (fun a b => ∃ t, flatWithAccuracy3D a b (spline.vertexAt t) accuracy = true)
        (part ++ [controlVertex3D q])

/-- **C61**, ramps. The central curve of a ramp consists of one piece for every two neighbouring drag
points and ends with the last drag point. -/
theorem C61_ramp_curve {fuel dps accuracy vv} (h2 : 2 ≤ dps.length)
    (h : getRgVertex3D fuel dps accuracy = .ok vv) :
    ∃ (parts : List (List RenderVertex3D)) (last : DragPoint), dps.getLast? = some last ∧
      vv = parts.flatten ++ [⟨last.x, last.y, last.z, true, false, true⟩] ∧
      parts.length = dps.length - 1 ∧
      ∀ i < dps.length - 1, ∃ before p q after part, PieceOf dps false i before p q after ∧
        parts[i]? = some part ∧ CurvePiece3D accuracy before p q after part := by
  unfold getRgVertex3D at h
  simp only [if_neg (show ¬ dps.length < 2 by omega), bind, Except.bind, pure, Except.pure] at h
  split at h
  · cases h
  · rename_i parts hp
    cases h
    obtain ⟨hl, hg⟩ := mapM_ok_get hp
    obtain ⟨last, hlast⟩ : ∃ last, dps.getLast? = some last := by
      cases hd : dps.getLast? with
      | none => rw [List.getLast?_eq_none_iff] at hd; simp [hd] at h2
      | some l => exact ⟨l, rfl⟩
    refine ⟨parts, last, hlast, by rw [hlast]; rfl, by rw [hl]; simp, ?_⟩
    intro i hi
    obtain ⟨part, hpart, hseg⟩ := hg i i (by rw [List.getElem?_range (by exact hi)])
    obtain ⟨before, p, q, after, hpo, heq⟩ := rgSegment3D_eq fuel dps accuracy i
      (by simpa [pieceCount] using hi)
    refine ⟨before, p, q, after, part, hpo, hpart, ?_⟩
    rw [heq] at hseg
    unfold CurvePiece3D
    split at hseg
    · rename_i hc
      cases hseg
      rw [if_pos hc]
    · rename_i hc
      rw [if_neg hc]
      rw [recurse3D_gen] at hseg
      exact genRec_spec _ _ _ _ _ _ _ _ hseg

/-- **C61**, ramps: no panics -/
theorem C61_ramp_no_panic {fuel dps accuracy e}
    (h : getRgVertex3D fuel dps accuracy = .error e) : e = .fuel := by
  unfold getRgVertex3D at h
  by_cases h2 : dps.length < 2
  · simp only [if_pos h2] at h; cases h
  · simp only [if_neg h2, bind, Except.bind, pure, Except.pure] at h
    split at h
    · rename_i e' he
      cases h
      obtain ⟨i, hi, hf⟩ := mapM_err he
      obtain ⟨before, p, q, after, -, heq⟩ := rgSegment3D_eq fuel dps accuracy i
        (by simpa [pieceCount] using hi)
      rw [heq] at hf
      split at hf
      · cases hf
      · rw [recurse3D_gen] at hf
        exact genRec_err _ _ _ _ _ _ _ _ hf
    · cases h

/-! ### What does not hold: a drag point that is not a number

The code calls itself until a chord is flat. A chord that starts at a point with a coordinate that is
not a number never is. -/

/-- the laws of IEEE-754 arithmetic for NaN that are used -/
structure NanLaws : Prop where
  sub_left : ∀ a b : F32, a.isNaN = true → (Arith.sub a b).isNaN = true
  sub_right : ∀ a b : F32, b.isNaN = true → (Arith.sub a b).isNaN = true
  mul_left : ∀ a b : F32, a.isNaN = true → (Arith.mul a b).isNaN = true
  mul_right : ∀ a b : F32, b.isNaN = true → (Arith.mul a b).isNaN = true
  lt_left : ∀ a b : F32, a.isNaN = true → Arith.lt a b = false

theorem abs_isNaN (a : F32) (h : a.isNaN = true) : a.abs.isNaN = true := by
  unfold F32.isNaN F32.abs at *
  have hlt : a.toNat < 4294967296 := a.toNat_lt
  rw [UInt32.toNat_ofNat_of_lt' (show a.toNat % 0x80000000 < 4294967296 by omega)]
  rw [Nat.mod_mod]
  exact h

/-- **C61**, failure. If a drag point at the start of a piece has a coordinate that is NaN, the curve is
never finished: the recursion exceeds every bound. -/
theorem C61_nan_never_ends (laws : NanLaws) {dps : List DragPoint} {closed : Bool} {i : Nat}
    {p : DragPoint} (h2 : 2 ≤ dps.length) (hi : i < pieceCount dps closed) (hp : dps[i]? = some p)
    (hnan : p.x.isNaN = true ∨ p.y.isNaN = true) (accuracy : F32) :
    ∀ fuel, getRgVertex2D fuel dps accuracy closed = .error .fuel := by
  intro fuel
  cases h : getRgVertex2D fuel dps accuracy closed with
  | error e => rw [C61_no_panic h]
  | ok vv =>
    exfalso
    unfold getRgVertex2D at h
    simp only [if_neg (show ¬ dps.length < 2 by omega), bind, Except.bind, pure, Except.pure] at h
    split at h
    · cases h
    · rename_i parts hparts
      obtain ⟨-, hg⟩ := mapM_ok_get hparts
      obtain ⟨part, -, hseg⟩ := hg i i (by rw [List.getElem?_range (by exact hi)])
      obtain ⟨before, p', q, after, hpo, heq⟩ := rgSegment2D_eq fuel dps accuracy closed i h2 hi
      rw [hp.symm.trans hpo.start |> Option.some.inj] at hnan
      have hc : coincide2D p' q = false := by
        unfold coincide2D
        rcases hnan with hx | hy
        · rw [laws.lt_left _ _ (abs_isNaN _ (laws.sub_left _ _ hx))]; rfl
        · rw [laws.lt_left _ _ (abs_isNaN _ (laws.sub_left _ _ hy))]; simp
      rw [heq, if_neg (by simp [hc]), recurse2D_gen, genRec_endless] at hseg
      · cases hseg
      · intro b m
        unfold flatWithAccuracy2D
        apply laws.lt_left
        apply laws.mul_left
        apply laws.sub_left
        rcases hnan with hx | hy
        · exact laws.mul_left _ _ (laws.sub_right _ _ hx)
        · exact laws.mul_right _ _ (laws.sub_right _ _ hy)

end

theorem neg_isNaN (a : F32) : a.neg.isNaN = a.isNaN := by
  unfold F32.isNaN F32.neg
  rw [UInt32.toNat_xor]
  have : (a.toNat ^^^ UInt32.toNat 0x80000000) % 2147483648 = a.toNat % 2147483648 := by
    have := Nat.xor_mod_two_pow (a := a.toNat) (b := UInt32.toNat 0x80000000) (n := 31)
    rw [show (2 : Nat) ^ 31 = 2147483648 from rfl] at this
    rw [this]
    show a.toNat % 2147483648 ^^^ (2147483648 % 2147483648) = _
    simp
  rw [this]

/-- IEEE-754 arithmetic has the laws -/
theorem ieee_nan (s c : F32 → F32) (p : F32 → F32 → F32) : letI := ieee s c p; NanLaws :=
  letI := ieee s c p
  {
  sub_left a b h := by
    show (ieeeAdd a b.neg).isNaN = true
    unfold ieeeAdd; rw [if_pos (by simp [h])]; rfl
  sub_right a b h := by
    show (ieeeAdd a b.neg).isNaN = true
    unfold ieeeAdd; rw [if_pos (by simp [h, neg_isNaN])]; rfl
  mul_left a b h := by
    show (ieeeMul a b).isNaN = true
    unfold ieeeMul; dsimp only; rw [if_pos (by simp [h])]; rfl
  mul_right a b h := by
    show (ieeeMul a b).isNaN = true
    unfold ieeeMul; dsimp only; rw [if_pos (by simp [h])]; rfl
  lt_left a b h := by
    show ieeeLt a b = false
    unfold ieeeLt; simp [h] }

/-! ### Concrete cases -/

section
attribute [local instance] ieeeExact

/-- a drag point -/
def dragAt (x y : F32) (smooth : Bool) : DragPoint :=
  { DragPoint.default with x := x, y := y, smooth := smooth }

/-- a square with side 10; one corner is smooth, and one corner is given twice -/
def roundedSquare : List DragPoint :=
  [dragAt 0 0 false, dragAt fTen 0 true, dragAt fTen fTen false, dragAt fTen fTen false,
    dragAt 0 fTen false]

/-- the curve is finished within six levels of recursion and has points in between -/
example : (getRgVertex2D 6 roundedSquare fFour true).map
    (fun vv => (vv.length, vv.filter (·.control_point) |>.map fun v => (v.x, v.y))) =
      .ok (8, [(0, 0), (fTen, 0), (fTen, fTen), (0, fTen)]) := by
  decide +kernel

/-- so `C61_curve` and `C61_control_points` apply -/
example : ∃ vv, getRgVertex2D 6 roundedSquare fFour true = .ok vv ∧
    ∀ v ∈ vv, v.control_point = false → v.smooth = true := by
  cases h : getRgVertex2D 6 roundedSquare fFour true with
  | ok vv => exact ⟨vv, rfl, (C61_control_points (by decide) h).2⟩
  | error e =>
    have : (getRgVertex2D 6 roundedSquare fFour true).isOk = true := by decide +kernel
    rw [h] at this
    cases this

/-- the same points as a ramp (open) -/
example : (getRgVertex3D 8 roundedSquare fFour).map
    (fun vv => (vv.filter (·.control_point) |>.map fun v => (v.x, v.y))) =
    .ok [(0, 0), (fTen, 0), (fTen, fTen), (0, fTen)] := by
  decide +kernel

/-- A file with a NaN in a drag point makes the code recurse forever. -/
theorem C61_ends_counterexample : ∀ fuel,
    getRgVertex2D fuel [dragAt 0 0 false, dragAt fNaN 0 false, dragAt 0 fTen false] fFour true =
      .error .fuel :=
  C61_nan_never_ends (ieee_nan _ _ _) (i := 1) (p := dragAt fNaN 0 false) (by decide) (by decide)
    rfl (Or.inl (by decide)) _

end
end Vpin
