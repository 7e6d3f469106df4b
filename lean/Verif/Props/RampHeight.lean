import Verif.Props.RampMesh
/-
C68: the height of a ramp below a point.
-/
namespace Vpin
open Arith

section
variable [Arith]

/-- "less than" is a strict order, as it is for IEEE numbers (`C68_ieee_order`) -/
structure StrictlyOrdered : Prop where
  irrefl : ∀ a : F32, ¬ (a <ᶠ a)
  trans : ∀ a b c : F32, a <ᶠ b → b <ᶠ c → a <ᶠ c

theorem segmentFoot_spec (p q : RenderVertex3D) (x y : F32) : segmentFoot p q x y = footOn p q x y := rfl

theorem onSegmentBox_spec (p q : RenderVertex3D) (c : Vec2) :
    onSegmentBox p q c = true ↔ withinBox p q c := by
  simp only [onSegmentBox, withinBox, Bool.and_eq_true, and_assoc]

theorem foot_loop (ho : StrictlyOrdered) (vv : List RenderVertex3D) (x y : F32)
    (k : Nat) (hk : k + 1 ≤ vv.length) :
    ∃ s, (List.range k).foldlM (footStep vv x y) (fMax, none) = .ok s ∧
      (s.1 = fMax ∨ s.1 <ᶠ fMax) ∧
      (s.2 = none → s.1 = fMax) ∧
      (∀ c i, s.2 = some (c, i) → i < k ∧ FootOnSegment vv x y i s.1 c) ∧
      (∀ j < k, ∀ d c, FootOnSegment vv x y j d c → ¬ (d <ᶠ s.1)) ∧
      (s.2 = none → ∀ j < k, ∀ d c, ¬ FootOnSegment vv x y j d c) := by
  induction k with
  | zero =>
    refine ⟨(fMax, none), rfl, Or.inl rfl, fun _ => rfl, ?_, ?_, ?_⟩
    · intro c i h; cases h
    · intro j hj; omega
    · intro _ j hj; omega
  | succ k ih =>
    obtain ⟨s, hs, hm, hn, hb, hmin, hnone⟩ := ih (by omega)
    have h1 : vv[k]? = some vv[k] := List.getElem?_eq_getElem (by omega)
    have h2 : vv[k + 1]? = some vv[k + 1] := List.getElem?_eq_getElem (by omega)
    rw [List.range_succ, List.foldlM_append, hs]
    simp only [bind, Except.bind, List.foldlM_cons, List.foldlM_nil, footStep, getOrPanic_some h1,
      getOrPanic_some h2, segmentFoot_spec]
    have huniq : ∀ d c, FootOnSegment vv x y k d c → footOn vv[k] vv[k + 1] x y = some (d, c) ∧
        withinBox vv[k] vv[k + 1] c ∧ d <ᶠ fMax := by
      rintro d c ⟨p, q, hp, hq, hf, hw, hd⟩
      rw [h1] at hp; rw [h2] at hq
      cases hp; cases hq
      exact ⟨hf, hw, hd⟩
    cases hf : footOn vv[k] vv[k + 1] x y with
    | none =>
      refine ⟨s, rfl, hm, hn, ?_, ?_, ?_⟩
      · intro c i h
        obtain ⟨a, b⟩ := hb c i h
        exact ⟨by omega, b⟩
      · intro j hj d c hfo
        by_cases hjk : j < k
        · exact hmin j hjk d c hfo
        · obtain rfl : j = k := by omega
          have := (huniq d c hfo).1
          rw [hf] at this; cases this
      · intro h j hj d c hfo
        by_cases hjk : j < k
        · exact hnone h j hjk d c hfo
        · obtain rfl : j = k := by omega
          have := (huniq d c hfo).1
          rw [hf] at this; cases this
    | some r =>
      obtain ⟨dist, foot⟩ := r
      dsimp only
      by_cases hc : ((dist <ᶠ s.1) && onSegmentBox vv[k] vv[k + 1] foot) = true
      · rw [if_pos hc]
        obtain ⟨c1, c2⟩ := Bool.and_eq_true_iff.1 hc
        have hd : dist <ᶠ fMax := by
          rcases hm with hm | hm
          · rw [hm] at c1; exact c1
          · exact ho.trans _ _ _ c1 hm
        have hfk : FootOnSegment vv x y k dist foot :=
          ⟨vv[k], vv[k + 1], h1, h2, hf, (onSegmentBox_spec _ _ _).1 c2, hd⟩
        refine ⟨(dist, some (foot, k)), rfl, Or.inr hd, by intro h; (cases h), ?_, ?_, by intro h; (cases h)⟩
        · intro c i h
          cases h
          exact ⟨by omega, hfk⟩
        · intro j hj d c hfo hlt'
          by_cases hjk : j < k
          · exact hmin j hjk d c hfo (ho.trans _ _ _ hlt' c1)
          · obtain rfl : j = k := by omega
            have := (huniq d c hfo).1
            rw [hf] at this
            cases this
            exact ho.irrefl _ hlt'
      · rw [if_neg hc]
        refine ⟨s, rfl, hm, hn, ?_, ?_, ?_⟩
        · intro c i h
          obtain ⟨a, b⟩ := hb c i h
          exact ⟨by omega, b⟩
        · intro j hj d c hfo hlt'
          by_cases hjk : j < k
          · exact hmin j hjk d c hfo hlt'
          · obtain rfl : j = k := by omega
            obtain ⟨e, hw, -⟩ := huniq d c hfo
            rw [hf] at e
            cases e
            exact hc (by rw [hlt', (onSegmentBox_spec _ _ _).2 hw]; rfl)
        · intro h j hj d c hfo
          by_cases hjk : j < k
          · exact hnone h j hjk d c hfo
          · obtain rfl : j = k := by omega
            obtain ⟨e, hw, hd⟩ := huniq d c hfo
            rw [hf] at e
            cases e
            refine hc ?_
            rw [hn h, hd, (onSegmentBox_spec _ _ _).2 hw]; rfl

/-- **C68**: the search for the closest point of a curve never panics. It gives none if no perpendicular
from the point meets a segment, and otherwise the foot of a shortest one, with the number of its
segment. -/
theorem C68_closest (ho : StrictlyOrdered) (vv : List RenderVertex3D) (x y : F32) :
    ∃ r, closestPointOnPolyline vv x y = .ok r ∧
      (r = none → ∀ j d c, ¬ FootOnSegment vv x y j d c) ∧
      (∀ c i, r = some (c, i) → ∃ d, FootOnSegment vv x y i d c ∧
        ∀ j d' c', FootOnSegment vv x y j d' c' → ¬ (d' <ᶠ d)) := by
  have hbound : ∀ {j d c}, FootOnSegment vv x y j d c → j + 1 < vv.length := by
    rintro j d c ⟨p, q, -, hq, -⟩
    exact (List.getElem?_eq_some_iff.1 hq).1
  unfold closestPointOnPolyline
  by_cases h2 : vv.length < 2
  · rw [if_pos h2]
    refine ⟨none, rfl, ?_, ?_⟩
    · intro _ j d c h
      have := hbound h
      omega
    · intro c i h; cases h
  · rw [if_neg h2]
    obtain ⟨s, hs, -, -, hb, hmin, hnone⟩ := foot_loop ho vv x y (vv.length - 1) (by omega)
    rw [hs]
    refine ⟨s.2, rfl, ?_, ?_⟩
    · intro h j d c hfo
      exact hnone h j (by have := hbound hfo; omega) d c hfo
    · intro c i h
      refine ⟨s.1, (hb c i h).2, ?_⟩
      intro j d' c' hfo
      exact hmin j (by have := hbound hfo; omega) d' c' hfo

theorem height_loop (vv : List RenderVertex3D) (seg k : Nat) (hk : k + 1 ≤ vv.length) :
    (List.range' 1 k).foldlM
        (fun (s : F32 × F32) i2 => do
          let q ← getOrPanic vv i2
          let p ← getOrPanic vv (i2 - 1)
          let len := planeLength q p
          pure (s.1 +ᶠ len, if i2 ≤ seg then s.2 +ᶠ len else s.2)) (0, 0) =
      (.ok (lengthTo vv k, lengthTo vv (min k seg)) : Res (F32 × F32)) := by
  induction k with
  | zero => simp [lengthTo, pure, Except.pure]
  | succ k ih =>
    have h1 : vv[k]? = some vv[k] := List.getElem?_eq_getElem (by omega)
    have h2 : vv[1 + k]? = some (vv[1 + k]'(by omega)) := List.getElem?_eq_getElem (by omega)
    have e : 1 + k - 1 = k := by omega
    rw [List.range'_concat, List.foldlM_append, ih (by omega)]
    simp only [bind, Except.bind, List.foldlM_cons, List.foldlM_nil, pure, Except.pure, Nat.one_mul,
      getOrPanic_some h2, e, getOrPanic_some h1]
    have hstep : stepLength vv (k + 1) k = planeLength (vv[1 + k]'(by omega)) vv[k] := by
      rw [stepLength, Nat.add_comm k 1, h2, h1]; rfl
    by_cases hs : 1 + k ≤ seg
    · rw [if_pos hs, Nat.min_eq_left (by omega), Nat.min_eq_left (by omega)]
      simp only [lengthTo, hstep]
    · rw [if_neg hs, Nat.min_eq_right (by omega), Nat.min_eq_right (by omega)]
      simp only [lengthTo, hstep]

/-- **C68**: the height of a ramp at a point: where the perpendicular from it meets the curve closest, the
height of the start of the segment, and the part of the rise of the ramp that belongs to the share of the
length up to the foot. Without such a foot it is 0. -/
theorem C68_height {fuel : Nat} {ramp : Ramp} {x y : F32} {vv : List RenderVertex3D}
    (hp : getRgVertex3D fuel ramp.drag_points (detailLevelToAccuracy fTen) = .ok vv) :
    (closestPointOnPolyline vv x y = .ok none → getRampSurfaceHeight fuel ramp x y = .ok 0) ∧
    (∀ (c : Vec2) (i : Nat) (p : RenderVertex3D), closestPointOnPolyline vv x y = .ok (some (c, i)) →
      vv[i]? = some p →
      let whole := lengthTo vv (vv.length - 1)
      let share := (lengthTo vv i +ᶠ
        sqrt ((c.x -ᶠ p.x) *ᶠ (c.x -ᶠ p.x) +ᶠ (c.y -ᶠ p.y) *ᶠ (c.y -ᶠ p.y))) /ᶠ whole
      getRampSurfaceHeight fuel ramp x y = .ok (if 0 <ᶠ whole then
        p.z +ᶠ share *ᶠ (ramp.height_top -ᶠ ramp.height_bottom) +ᶠ ramp.height_bottom
      else ramp.height_bottom)) := by
  constructor
  · intro hc
    unfold getRampSurfaceHeight
    rw [hp]
    simp only [bind, Except.bind]
    split
    · rfl
    · rw [hc]; rfl
  · intro c i p hc hpi
    dsimp only
    have hi : i < vv.length := (List.getElem?_eq_some_iff.1 hpi).1
    have h2 : ¬ vv.length < 2 := by
      intro h
      unfold closestPointOnPolyline at hc
      rw [if_pos h] at hc
      cases hc
    have hl := height_loop vv i (vv.length - 1) (by omega)
    rw [Nat.min_eq_right (by omega)] at hl
    unfold getRampSurfaceHeight
    simp only [bind, Except.bind] at hl ⊢
    rw [hp]
    dsimp only
    rw [if_neg h2, hc]
    dsimp only
    rw [hl]
    dsimp only
    rw [getOrPanic_some hpi]
    dsimp only
    split <;> rfl

/-- **C68**: asking for the height never panics. -/
theorem C68_no_panic (ho : StrictlyOrdered) {fuel : Nat} {ramp : Ramp} {x y : F32} {e}
    (h : getRampSurfaceHeight fuel ramp x y = .error e) : e = .fuel := by
  cases hp : getRgVertex3D fuel ramp.drag_points (detailLevelToAccuracy fTen) with
  | error e' =>
    unfold getRampSurfaceHeight at h
    rw [hp] at h
    cases h
    exact C61_ramp_no_panic hp
  | ok vv =>
    obtain ⟨r, hr, -, hs⟩ := C68_closest ho vv x y
    cases r with
    | none => rw [(C68_height hp).1 hr] at h; cases h
    | some r =>
      obtain ⟨c, i⟩ := r
      obtain ⟨d, ⟨p, q, hpi, -⟩, -⟩ := hs c i rfl
      rw [(C68_height hp).2 c i p hr hpi] at h
      cases h

end

/-- **C68**: IEEE numbers are strictly ordered, whatever the library functions. -/
theorem C68_ieee_order (sin cos : F32 → F32) (pow : F32 → F32 → F32) :
    @StrictlyOrdered (ieee sin cos pow) := by
  refine @StrictlyOrdered.mk (ieee sin cos pow) ?_ ?_
  · intro a h
    have h : ieeeLt a a = true := h
    unfold ieeeLt at h
    cases h1 : a.isNaN <;> cases h2 : a.isInf <;> cases h3 : a.isNeg <;> simp_all
  · intro a b c hab hbc
    have hab : ieeeLt a b = true := hab
    have hbc : ieeeLt b c = true := hbc
    show ieeeLt a c = true
    unfold ieeeLt at hab hbc ⊢
    cases a1 : a.isNaN <;> cases b1 : b.isNaN <;> cases c1 : c.isNaN <;>
      cases a2 : a.isInf <;> cases b2 : b.isInf <;> cases c2 : c.isInf <;>
      cases a3 : a.isNeg <;> cases b3 : b.isNeg <;> cases c3 : c.isNeg <;>
      simp_all <;> omega

/-! ### Concrete cases -/

section
attribute [local instance] ieeeExact

/-- a ramp from (0, 0) over (10, 0) to (10, 10), 50 units above the table -/
def cornerRamp : Ramp :=
  { Ramp.default with
    drag_points := [dragAt 0 0 false, dragAt fTen 0 false, dragAt fTen fTen false],
    height_bottom := 0x42480000, height_top := 0x42480000 }

/-- the height is found on the ramp, and inside the corner -/
example : getRampSurfaceHeight 6 cornerRamp fFour f32One = .ok 0x42480000 ∧
    getRampSurfaceHeight 6 cornerRamp fFour fThree = .ok 0x42480000 := by
  decide +kernel

/-- **The height of a ramp is not found beside an outer corner**: at (11, -1), one unit from the corner in
both directions, inside the width of the ramp, the height is 0 though all of the ramp is 50 units up. -/
theorem C68_outer_corner_counterexample :
    getRampSurfaceHeight 6 cornerRamp 0x41300000 f32One.neg = .ok 0 ∧
    cornerRamp.height_bottom = 0x42480000 ∧ cornerRamp.height_top = 0x42480000 ∧
    cornerRamp.drag_points.all (fun p => p.z == 0) = true := by
  decide +kernel

end
end Vpin
