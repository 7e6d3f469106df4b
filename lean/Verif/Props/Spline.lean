import Verif.Spec.Spline
/-
C61: the shape of the curves between drag points, with exact numbers.
-/
namespace Vpin
open Lean.Grind Geometry

variable {α : Type} [Field α]

theorem exactSpline_ops (a b : α) :
    (exactSpline (α := α)).add a b = a + b ∧ (exactSpline (α := α)).sub a b = a - b ∧
      (exactSpline (α := α)).mul a b = a * b ∧ (exactSpline (α := α)).div a b = a / b := ⟨rfl, rfl, rfl, rfl⟩
theorem exactSpline_neg (a : α) : (exactSpline (α := α)).neg a = -a := rfl
theorem exactSpline_one : (exactSpline (α := α)).one = 1 := rfl
theorem exactSpline_two : (exactSpline (α := α)).two = 2 := rfl
theorem exactSpline_three : (exactSpline (α := α)).three = 3 := rfl

/-- **C61**: with exact numbers a coordinate of the curve is that of the Catmull-Rom spline through the four points
with the given steps of time. -/
theorem C61_spline (x0 x1 x2 x3 d0 d1 d2 t : α) (h0 : d0 ≠ 0) (h1 : d1 ≠ 0) (h2 : d2 ≠ 0) (h01 : d0 + d1 ≠ 0)
    (h12 : d1 + d2 ≠ 0) :
    letI := exactSpline (α := α)
    (initNonuniformCatmullCoeffs x0 x1 x2 x3 d0 d1 d2).at t =
      pyramid 0 d0 (d0 + d1) (d0 + d1 + d2) x0 x1 x2 x3 (d0 + t * d1) := by
  have e1 : d0 + d1 - d0 = d1 := by grind
  have e2 : d0 + d1 + d2 - (d0 + d1) = d2 := by grind
  have e3 : d0 + d1 + d2 - d0 = d1 + d2 := by grind
  have e4 : d0 + d1 - 0 = d0 + d1 := by grind
  have e5 : d0 - 0 = d0 := by grind
  simp only [initNonuniformCatmullCoeffs, initCubicSplineCoeffs, Cubic.at, pyramid, line, exactSpline_ops, exactSpline_neg,
    exactSpline_two, exactSpline_three, e1, e2, e3, e4, e5]
  grind

/-- **C61**: it starts at the second and ends at the third point. -/
theorem C61_spline_ends (x0 x1 x2 x3 d0 d1 d2 : α) :
    letI := exactSpline (α := α)
    (initNonuniformCatmullCoeffs x0 x1 x2 x3 d0 d1 d2).at 0 = x1 ∧
      (initNonuniformCatmullCoeffs x0 x1 x2 x3 d0 d1 d2).at 1 = x2 := by
  simp only [initNonuniformCatmullCoeffs, initCubicSplineCoeffs, Cubic.at, exactSpline_ops, exactSpline_neg,
    exactSpline_two, exactSpline_three]
  constructor <;> grind

/-- the speed of a cubic at `t` -/
def speed (c : Cubic α) (t : α) : α := c.c1 + 2 * c.c2 * t + 3 * c.c3 * (t * t)

/-- **C61**: two neighbouring pieces meet with the same speed, in the times of the spline: the curve has no kink. -/
theorem C61_spline_smooth (x0 x1 x2 x3 x4 d0 d1 d2 d3 : α) (h1 : d1 ≠ 0) (h2 : d2 ≠ 0) :
    letI := exactSpline (α := α)
    speed (initNonuniformCatmullCoeffs x0 x1 x2 x3 d0 d1 d2) 1 / d1 =
      speed (initNonuniformCatmullCoeffs x1 x2 x3 x4 d1 d2 d3) 0 / d2 := by
  simp only [initNonuniformCatmullCoeffs, initCubicSplineCoeffs, speed, exactSpline_ops, exactSpline_neg,
    exactSpline_two, exactSpline_three]
  grind

/-- the steps of time between the points: their own ones, unless small; a small step in the middle is one, a small step
beside it is like it -/
structure Steps (step : π → π → α) (small : α → Bool) (v0 v1 v2 v3 : π) (d0 d1 d2 : α) : Prop where
  middle : d1 = if small (step v1 v2) then 1 else step v1 v2
  first : d0 = if small (step v0 v1) then d1 else step v0 v1
  last : d2 = if small (step v2 v3) then d1 else step v2 v3

theorem repair_steps (step : π → π → α) (small : α → Bool) (v0 v1 v2 v3 : π) :
    letI := exactSpline (α := α)
    ∃ d0 d1 d2, repairSteps small (step v0 v1) (step v1 v2) (step v2 v3) = (d0, d1, d2) ∧
      Steps step small v0 v1 v2 v3 d0 d1 d2 :=
  ⟨_, _, _, rfl, rfl, rfl, rfl⟩

/-- the positive numbers, as far as they matter here -/
structure Positive (pos : α → Prop) : Prop where
  one : pos 1
  add : ∀ a b, pos a → pos b → pos (a + b)
  ne : ∀ a, pos a → a ≠ 0

theorem Steps.pos {step : π → π → α} {small : α → Bool} {v0 v1 v2 v3 : π} {d0 d1 d2 : α} {pos : α → Prop}
    (hp : Positive pos) (hs : ∀ a, small a = false → pos a) (h : Steps step small v0 v1 v2 v3 d0 d1 d2) :
    pos d0 ∧ pos d1 ∧ pos d2 := by
  have h1 : pos d1 := by
    rw [h.middle]
    split
    · exact hp.one
    · rename_i hh; exact hs _ (Bool.not_eq_true _ |>.mp hh)
  refine ⟨?_, h1, ?_⟩
  · rw [h.first]
    split
    · exact h1
    · rename_i hh; exact hs _ (Bool.not_eq_true _ |>.mp hh)
  · rw [h.last]
    split
    · exact h1
    · rename_i hh; exact hs _ (Bool.not_eq_true _ |>.mp hh)

/-- **C61**: with exact numbers the curve of a piece in the plane is the Catmull-Rom spline through its four points, if
numbers that are not small are positive. -/
theorem C61_flat_spline {π : Type} {pos : α → Prop} (hp : Positive pos) (x y : π → α) (step : π → π → α)
    (small : α → Bool) (hs : ∀ a, small a = false → pos a) (v0 v1 v2 v3 : π) :
    letI := exactSpline (α := α)
    ∃ d0 d1 d2, Steps step small v0 v1 v2 v3 d0 d1 d2 ∧ ∀ t,
      let c := CatmullCurve2D.through x y step small v0 v1 v2 v3
      let at_ (f : π → α) := pyramid 0 d0 (d0 + d1) (d0 + d1 + d2) (f v0) (f v1) (f v2) (f v3) (d0 + t * d1)
      c.cx.at t = at_ x ∧ c.cy.at t = at_ y := by
  obtain ⟨d0, d1, d2, hr, h⟩ := repair_steps step small v0 v1 v2 v3
  obtain ⟨p0, p1, p2⟩ := h.pos hp hs
  refine ⟨d0, d1, d2, h, fun t => ?_⟩
  dsimp only [CatmullCurve2D.through]
  rw [hr]
  exact ⟨C61_spline _ _ _ _ _ _ _ _ (hp.ne _ p0) (hp.ne _ p1) (hp.ne _ p2) (hp.ne _ (hp.add _ _ p0 p1))
      (hp.ne _ (hp.add _ _ p1 p2)),
    C61_spline _ _ _ _ _ _ _ _ (hp.ne _ p0) (hp.ne _ p1) (hp.ne _ p2) (hp.ne _ (hp.add _ _ p0 p1))
      (hp.ne _ (hp.add _ _ p1 p2))⟩

/-- **C61**: the same in space, for ramps. -/
theorem C61_space_spline {π : Type} {pos : α → Prop} (hp : Positive pos) (x y z : π → α) (step : π → π → α)
    (small : α → Bool) (hs : ∀ a, small a = false → pos a) (v0 v1 v2 v3 : π) :
    letI := exactSpline (α := α)
    ∃ d0 d1 d2, Steps step small v0 v1 v2 v3 d0 d1 d2 ∧ ∀ t,
      let c := CatmullCurve3D.through x y z step small v0 v1 v2 v3
      let at_ (f : π → α) := pyramid 0 d0 (d0 + d1) (d0 + d1 + d2) (f v0) (f v1) (f v2) (f v3) (d0 + t * d1)
      c.cx.at t = at_ x ∧ c.cy.at t = at_ y ∧ c.cz.at t = at_ z := by
  obtain ⟨d0, d1, d2, hr, h⟩ := repair_steps step small v0 v1 v2 v3
  obtain ⟨p0, p1, p2⟩ := h.pos hp hs
  refine ⟨d0, d1, d2, h, fun t => ?_⟩
  dsimp only [CatmullCurve3D.through]
  rw [hr]
  exact ⟨C61_spline _ _ _ _ _ _ _ _ (hp.ne _ p0) (hp.ne _ p1) (hp.ne _ p2) (hp.ne _ (hp.add _ _ p0 p1))
      (hp.ne _ (hp.add _ _ p1 p2)),
    C61_spline _ _ _ _ _ _ _ _ (hp.ne _ p0) (hp.ne _ p1) (hp.ne _ p2) (hp.ne _ (hp.add _ _ p0 p1))
      (hp.ne _ (hp.add _ _ p1 p2)),
    C61_spline _ _ _ _ _ _ _ _ (hp.ne _ p0) (hp.ne _ p1) (hp.ne _ p2) (hp.ne _ (hp.add _ _ p0 p1))
      (hp.ne _ (hp.add _ _ p1 p2))⟩

/-- **C61**: the splines of the code are these, with the root of the distance as the step of time, small below 1e-4, and
the points at `t` taken in each coordinate. -/
theorem C61_code_spline [Arith] :
    (∀ v0 v1 v2 v3, CatmullCurve2D.new v0 v1 v2 v3 = .through (·.x) (·.y)
      (fun a b => Arith.sqrt (Vec2.length (Vec2.sub ⟨b.x, b.y⟩ ⟨a.x, a.y⟩))) (Arith.lt · f1em4) v0 v1 v2 v3) ∧
    (∀ v0 v1 v2 v3, CatmullCurve3D.new v0 v1 v2 v3 = .through (·.x) (·.y) (·.z)
      (fun a b => Arith.sqrt (Vec3.length (Vec3.sub ⟨b.x, b.y, b.z⟩ ⟨a.x, a.y, a.z⟩))) (Arith.lt · f1em4) v0 v1 v2 v3) ∧
    (∀ (c : CatmullCurve2D F32) t, (c.vertexAt t).x = c.cx.at t ∧ (c.vertexAt t).y = c.cy.at t) ∧
    (∀ (c : CatmullCurve3D F32) t, (c.vertexAt t).x = c.cx.at t ∧ (c.vertexAt t).y = c.cy.at t ∧
      (c.vertexAt t).z = c.cz.at t) :=
  ⟨fun _ _ _ _ => rfl, fun _ _ _ _ => rfl, fun _ _ => ⟨rfl, rfl⟩, fun _ _ => ⟨rfl, rfl, rfl⟩⟩

/-! ### A concrete case -/

/-- steps of rational points on a line, all different, and the numbers above zero -/
example : Positive (fun a : Rat => 0 < a) ∧ (∀ a : Rat, decide (a ≤ 0) = false → 0 < a) ∧
    pyramid 0 1 3 4 0 1 (3 : Rat) 4 2 = 2 := by
  refine ⟨⟨by decide, ?_, ?_⟩, ?_, by decide +kernel⟩
  · intro a b ha hb; grind
  · intro a ha; grind
  · intro a ha
    have := _root_.of_decide_eq_false ha
    grind

end Vpin
