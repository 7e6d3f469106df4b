import Verif.Props.RealNormals
/-
C69 and C92: the prism of a primitive without a mesh of its own, with real numbers.
-/
namespace Vpin
open RealMesh

attribute [local instance] realNumbers

/-- the direction of corner `i` of `n` -/
noncomputable def cornerAngle (n i : Nat) : ℝ := 2 * Real.pi / n * i + Real.pi / n

theorem cos_side_pos {n : Nat} (h : 3 ≤ n) : 0 < Real.cos (Real.pi / n) := by
  have hn : (3 : ℝ) ≤ n := by exact_mod_cast h
  have hpi := Real.pi_pos
  apply Real.cos_pos_of_mem_Ioo
  constructor
  · have : 0 < Real.pi / n := by positivity
    linarith
  · rw [div_lt_div_iff₀ (by linarith) (by norm_num)]
    nlinarith

theorem prismCorner_real (n i : Nat) : (Any.prismCorner n i : Any.V2 ℝ) =
    ⟨Real.sin (cornerAngle n i) * (-(1 / 2) / Real.cos (Real.pi / n)),
      Real.cos (cornerAngle n i) * (-(1 / 2) / Real.cos (Real.pi / n))⟩ := rfl

theorem cornerAngle_succ (n i : Nat) : cornerAngle n (i + 1) = cornerAngle n i + 2 * (Real.pi / n) := by
  unfold cornerAngle
  push_cast
  ring

/-- **C92**, the prism. With real numbers, the corners of the prism of a primitive without a mesh of its own are those of a
regular polygon around the axis, and the middles of its edges are at distance one half from it. -/
theorem C92_prism {n : Nat} (h : 3 ≤ n) (i j : Nat) :
    let p : Any.V2 ℝ := Any.prismCorner n i
    let q : Any.V2 ℝ := Any.prismCorner n j
    let next : Any.V2 ℝ := Any.prismCorner n (i + 1)
    p.x * q.x + p.y * q.y =
      (1 / (2 * Real.cos (Real.pi / n))) * (1 / (2 * Real.cos (Real.pi / n))) * Real.cos (2 * Real.pi * (i - j) / n) ∧
    dist2 ⟨0, 0⟩ ⟨(p.x + next.x) / 2, (p.y + next.y) / 2⟩ = 1 / 2 := by
  have hc := cos_side_pos h
  dsimp only
  constructor
  · rw [prismCorner_real, prismCorner_real]
    have e : 2 * Real.pi * ((i : ℝ) - j) / n = cornerAngle n i - cornerAngle n j := by
      unfold cornerAngle
      ring
    rw [e, Real.cos_sub]
    dsimp only
    field_simp
    ring
  · rw [prismCorner_real, prismCorner_real, cornerAngle_succ]
    generalize cornerAngle n i = a
    generalize Real.pi / n = d at *
    have hs := Real.cos_sq_add_sin_sq (a + d)
    have e1 : Real.sin a + Real.sin (a + 2 * d) = 2 * Real.sin (a + d) * Real.cos d := by
      have h1 := Real.sin_sub (a + d) d
      have h2 := Real.sin_add (a + d) d
      rw [show a + d - d = a by ring] at h1
      rw [show a + d + d = a + 2 * d by ring] at h2
      linarith
    have e2 : Real.cos a + Real.cos (a + 2 * d) = 2 * Real.cos (a + d) * Real.cos d := by
      have h1 := Real.cos_sub (a + d) d
      have h2 := Real.cos_add (a + d) d
      rw [show a + d - d = a by ring] at h1
      rw [show a + d + d = a + 2 * d by ring] at h2
      linarith
    unfold dist2
    dsimp only
    rw [← add_mul, ← add_mul, e1, e2]
    have : (2 * Real.sin (a + d) * Real.cos d * (-(1 / 2) / Real.cos d) / 2 - 0) *
        (2 * Real.sin (a + d) * Real.cos d * (-(1 / 2) / Real.cos d) / 2 - 0) +
        (2 * Real.cos (a + d) * Real.cos d * (-(1 / 2) / Real.cos d) / 2 - 0) *
        (2 * Real.cos (a + d) * Real.cos d * (-(1 / 2) / Real.cos d) / 2 - 0) = 1 / 2 * (1 / 2) := by
      have hk : Real.cos d * (-(1 / 2) / Real.cos d) = -(1 / 2) := by field_simp
      have hk2 : ∀ s : ℝ, 2 * s * Real.cos d * (-(1 / 2) / Real.cos d) / 2 = -(s / 2) := by
        intro s
        linear_combination s * hk
      rw [hk2, hk2]
      linear_combination (1 / 4) * hs
    rw [this]
    exact Real.sqrt_mul_self (by norm_num)

/-- **C69**, failure: the normals of the sides of the prism, documented as facing outwards, point to the axis: the corners
are on the other side of the axis than their angles say, because the radius is negative, but the normals are not turned. The
faces of the sides face outwards, so that the normals are on the wrong side of them. -/
theorem C69_normals_counterexample {n : Nat} (h : 3 ≤ n) (i : Nat) :
    let p : Any.V2 ℝ := Any.prismCorner n i
    let q : Any.V2 ℝ := Any.prismCorner n (i + 1)
    Real.sin (cornerAngle n i) * p.x + Real.cos (cornerAngle n i) * p.y < 0 ∧
      0 < dot (Any.faceNormal ⟨q.x, q.y, 1 / 2⟩ ⟨p.x, p.y, -(1 / 2)⟩ ⟨p.x, p.y, 1 / 2⟩) ⟨p.x, p.y, 0⟩ ∧
      dot (Any.faceNormal ⟨q.x, q.y, 1 / 2⟩ ⟨p.x, p.y, -(1 / 2)⟩ ⟨p.x, p.y, 1 / 2⟩)
        ⟨Real.sin (cornerAngle n i), Real.cos (cornerAngle n i), 0⟩ < 0 := by
  have hc := cos_side_pos h
  have hs : 0 < Real.sin (2 * (Real.pi / n)) := by
    have hn : (3 : ℝ) ≤ n := by exact_mod_cast h
    have hpi := Real.pi_pos
    apply Real.sin_pos_of_pos_of_lt_pi
    · positivity
    · rw [show 2 * (Real.pi / n) = 2 * Real.pi / n by ring, div_lt_iff₀ (by linarith)]
      nlinarith
  dsimp only
  have e1 : cornerAngle n (i + 1) = cornerAngle n i + 2 * (Real.pi / n) := cornerAngle_succ n i
  rw [prismCorner_real, prismCorner_real, e1]
  generalize cornerAngle n i = a at *
  generalize 2 * (Real.pi / n) = d at *
  have hrneg : -(1 / 2) / Real.cos (Real.pi / n) < 0 := div_neg_of_neg_of_pos (by norm_num) hc
  generalize -(1 / 2) / Real.cos (Real.pi / n) = r at *
  have hunit := Real.cos_sq_add_sin_sq a
  have hcr : Any.cross (minus ⟨Real.sin a * r, Real.cos a * r, -(1 / 2)⟩ ⟨Real.sin (a + d) * r, Real.cos (a + d) * r, 1 / 2⟩)
      (minus ⟨Real.sin a * r, Real.cos a * r, 1 / 2⟩ ⟨Real.sin (a + d) * r, Real.cos (a + d) * r, 1 / 2⟩) =
      ⟨(Real.cos a - Real.cos (a + d)) * r, -((Real.sin a - Real.sin (a + d)) * r), 0⟩ := by
    rw [cross_real]
    unfold minus
    simp only [V3.mk.injEq]
    refine ⟨?_, ?_, ?_⟩ <;> ring
  have hin : (Real.cos a - Real.cos (a + d)) * Real.sin a - (Real.sin a - Real.sin (a + d)) * Real.cos a = Real.sin d := by
    rw [Real.sin_add, Real.cos_add]
    linear_combination Real.sin d * hunit
  have hne : Any.cross (minus ⟨Real.sin a * r, Real.cos a * r, -(1 / 2)⟩ ⟨Real.sin (a + d) * r, Real.cos (a + d) * r, 1 / 2⟩)
      (minus ⟨Real.sin a * r, Real.cos a * r, 1 / 2⟩ ⟨Real.sin (a + d) * r, Real.cos (a + d) * r, 1 / 2⟩) ≠ ⟨0, 0, 0⟩ := by
    rw [hcr]
    intro h0
    rw [V3.mk.injEq] at h0
    have h1 := (mul_eq_zero.1 h0.1).resolve_right hrneg.ne
    have h2 := (mul_eq_zero.1 (neg_eq_zero.1 h0.2.1)).resolve_right hrneg.ne
    rw [h1, h2] at hin
    linarith
  obtain ⟨hu, k, hk, ek⟩ := unit3_real hne
  have ef : Any.faceNormal ⟨Real.sin (a + d) * r, Real.cos (a + d) * r, 1 / 2⟩ ⟨Real.sin a * r, Real.cos a * r, -(1 / 2)⟩
      ⟨Real.sin a * r, Real.cos a * r, 1 / 2⟩ = Any.unit3 (Any.cross
      (minus ⟨Real.sin a * r, Real.cos a * r, -(1 / 2)⟩ ⟨Real.sin (a + d) * r, Real.cos (a + d) * r, 1 / 2⟩)
      (minus ⟨Real.sin a * r, Real.cos a * r, 1 / 2⟩ ⟨Real.sin (a + d) * r, Real.cos (a + d) * r, 1 / 2⟩)) := rfl
  rw [ef]
  generalize Any.unit3 (Any.cross
      (minus ⟨Real.sin a * r, Real.cos a * r, -(1 / 2)⟩ ⟨Real.sin (a + d) * r, Real.cos (a + d) * r, 1 / 2⟩)
      (minus ⟨Real.sin a * r, Real.cos a * r, 1 / 2⟩ ⟨Real.sin (a + d) * r, Real.cos (a + d) * r, 1 / 2⟩)) = m at *
  rw [hcr, V3.mk.injEq] at ek
  -- the face normal has a negative product with the direction of the corner
  have hneg : k * (m.x * Real.sin a + m.y * Real.cos a) = r * Real.sin d := by
    linear_combination (-Real.sin a) * ek.1 - Real.cos a * ek.2.1 + r * hin
  have hm : m.x * Real.sin a + m.y * Real.cos a < 0 := by
    have h1 : k * (m.x * Real.sin a + m.y * Real.cos a) < 0 := hneg ▸ mul_neg_of_neg_of_pos hrneg hs
    by_contra hcon
    have := mul_nonneg hk.le (not_lt.1 hcon)
    linarith
  unfold dot
  dsimp only
  refine ⟨?_, ?_, ?_⟩
  · have : Real.sin a * (Real.sin a * r) + Real.cos a * (Real.cos a * r) = r := by linear_combination r * hunit
    rw [this]
    exact hrneg
  · have : m.x * (Real.sin a * r) + m.y * (Real.cos a * r) + m.z * 0 = (m.x * Real.sin a + m.y * Real.cos a) * r := by ring
    rw [this]
    exact mul_pos_of_neg_of_neg hm hrneg
  · linarith

/-- **C92**, failure: without the condition on right angles the rings collapse. A level line that turns by a right angle has
rings without extent from there on. -/
theorem C92_right_angle_counterexample {t : Nat → V3 ℝ} {up : V3 ℝ} (hz : ∀ i ≤ 1, (t i).z = 0) (hup : up.z = 0)
    (hright : dot (t 0) (t 1) = 0) (thickness : ℝ) (S : Nat) (i j : Nat) (hi : 1 ≤ i) :
    Any.spoke Any.cross t up thickness S i j = ⟨0, 0, 0⟩ := by
  have zero : Any.unit3 (⟨0, 0, 0⟩ : V3 ℝ) = ⟨0, 0, 0⟩ := by
    unfold Any.unit3
    simp only [rn_add, rn_mul, rn_sqrt, rn_isZero, rn_zero]
    norm_num
  have h0 : ∃ k : ℝ, (Any.frame Any.cross t up 0).2 = ⟨k * (t 0).y, -(k * (t 0).x), 0⟩ := by
    have e : Any.cross (t 0) (Any.cross (t 0) up) =
        ⟨(t 0).y * ((t 0).x * up.y - (t 0).y * up.x), -((t 0).x * ((t 0).x * up.y - (t 0).y * up.x)), 0⟩ := by
      rw [cross_real, cross_real]
      simp only [hz 0 (by omega), hup, V3.mk.injEq]
      refine ⟨?_, ?_, ?_⟩ <;> ring
    show ∃ k : ℝ, Any.unit3 (Any.cross (t 0) (Any.cross (t 0) up)) = _
    rw [e]
    unfold Any.unit3
    simp only [rn_add, rn_mul, rn_sqrt, rn_isZero, rn_zero, rn_div]
    split
    · exact ⟨0, by simp⟩
    · rename_i h
      generalize √_ = d at *
      refine ⟨((t 0).x * up.y - (t 0).y * up.x) / d, ?_⟩
      simp only [V3.mk.injEq]
      refine ⟨?_, ?_, ?_⟩ <;> ring
  have key : ∀ i, 1 ≤ i → Any.frame Any.cross t up i = (⟨0, 0, 0⟩, ⟨0, 0, 0⟩) := by
    intro i hi
    induction i, hi using Nat.le_induction with
    | base =>
      obtain ⟨k, hk⟩ := h0
      have e : Any.cross (Any.frame Any.cross t up 0).2 (t 1) = ⟨0, 0, 0⟩ := by
        rw [hk, cross_real]
        unfold dot at hright
        have h1 := hz 0 (by omega)
        have h2 := hz 1 (by omega)
        rw [h1, h2] at hright
        simp only [h2, V3.mk.injEq]
        refine ⟨by ring, by ring, ?_⟩
        linear_combination k * hright
      show (Any.unit3 (Any.cross (Any.frame Any.cross t up 0).2 (t 1)),
        Any.unit3 (Any.cross (t 1) (Any.cross (Any.frame Any.cross t up 0).2 (t 1)))) = _
      rw [e, zero, cross_real]
      simp only [mul_zero, sub_zero]
      rw [zero]
    | succ i hi ih =>
      show (Any.unit3 (Any.cross (Any.frame Any.cross t up i).2 (t (i + 1))),
        Any.unit3 (Any.cross (t (i + 1)) (Any.cross (Any.frame Any.cross t up i).2 (t (i + 1))))) = _
      rw [ih]
      have e : Any.cross (⟨0, 0, 0⟩ : V3 ℝ) (t (i + 1)) = ⟨0, 0, 0⟩ := by rw [cross_real]; simp
      have e2 : Any.cross (t (i + 1)) (⟨0, 0, 0⟩ : V3 ℝ) = ⟨0, 0, 0⟩ := by rw [cross_real]; simp
      dsimp only
      rw [e, zero, e2, zero]
  unfold Any.spoke
  rw [key i hi]
  unfold Any.rotatedAxis
  simp only [rn_add, rn_mul, V3.mk.injEq]
  refine ⟨?_, ?_, ?_⟩ <;> ring

/-! ### The hypotheses are met -/

/-- a line that rises and bends: it is not along the vector its first ring is built from, and does not turn by right angles -/
example : let t : Nat → V3 ℝ := fun i => ⟨1, i, 1⟩
    Any.cross (t 0) (⟨3, 5, 1⟩ : V3 ℝ) ≠ ⟨0, 0, 0⟩ ∧ ∀ i < 10, dot (t i) (t (i + 1)) ≠ 0 := by
  constructor
  · rw [cross_real]
    intro h
    rw [V3.mk.injEq] at h
    norm_num at h
  · intro i _
    unfold dot
    push_cast
    positivity

/-- the first ring of a wire of thickness 2 along the x axis: its first two of four vertices -/
example : let t : Nat → V3 ℝ := fun _ => ⟨1, 0, 0⟩
    Any.spoke Any.cross t ⟨1, 1, 0⟩ 2 4 0 0 = ⟨0, 0, 1⟩ ∧
      dot (Any.spoke Any.cross t ⟨1, 1, 0⟩ 2 4 0 1) ⟨0, 0, 1⟩ = 0 := by
  have hc : Any.cross (⟨1, 0, 0⟩ : V3 ℝ) ⟨1, 1, 0⟩ = ⟨0, 0, 1⟩ := by rw [cross_real]; simp
  have first : Any.spoke Any.cross (fun _ => ⟨1, 0, 0⟩) ⟨1, 1, 0⟩ 2 4 0 0 = (⟨0, 0, 1⟩ : V3 ℝ) := by
    unfold Any.spoke Any.frame
    simp only [hc]
    unfold Any.rotatedAxis Any.unit3
    simp only [rn_add, rn_sub, rn_mul, rn_div, rn_sqrt, rn_isZero, rn_one, rn_sin, rn_cos, rn_ofNat, rn_half, rn_zero]
    norm_num
  refine ⟨first, ?_⟩
  have hr := C92_round (first := Any.cross) (t := fun _ => ⟨1, 0, 0⟩) (up := ⟨1, 1, 0⟩) (N := 0) 2 4 (Or.inl rfl)
    (by rw [hc]; intro h; rw [V3.mk.injEq] at h; norm_num at h) (by intro i hi; omega) 0 (le_refl _)
  have := hr.angles 1 0
  rw [first] at this
  rw [this, show 2 * Real.pi * (((1 : Nat) : ℝ) - ((0 : Nat) : ℝ)) / ((4 : Nat) : ℝ) = Real.pi / 2 by push_cast; ring,
    Real.cos_pi_div_two, mul_zero]

/-- a corner that is neither straight nor turned back -/
example : let p : Any.V2 ℝ := ⟨0, 0⟩
    let q : Any.V2 ℝ := ⟨3, 4⟩
    let r : Any.V2 ℝ := ⟨6, 0⟩
    p ≠ q ∧ q ≠ r ∧ ¬ ((q.x - p.x) * (r.y - q.y) - (q.y - p.y) * (r.x - q.x) = 0 ∧
      (q.x - p.x) * (r.x - q.x) + (q.y - p.y) * (r.y - q.y) < 0) := by
  refine ⟨?_, ?_, ?_⟩
  · intro h; rw [Any.V2.mk.injEq] at h; norm_num at h
  · intro h; rw [Any.V2.mk.injEq] at h; norm_num at h
  · norm_num

/-- a segment to find the foot on -/
example : (1 / 10 ^ 12 : ℝ) ≤ dist2 ⟨0, 0⟩ ⟨3, 4⟩ := by
  unfold dist2
  rw [show ((3 : ℝ) - 0) * (3 - 0) + (4 - 0) * (4 - 0) = 5 * 5 by norm_num, Real.sqrt_mul_self (by norm_num)]
  norm_num

/-- a triangle, and the edges of a wall with a smooth corner -/
example : Any.cross (minus (⟨1, 0, 0⟩ : V3 ℝ) ⟨0, 0, 0⟩) (minus ⟨0, 1, 0⟩ ⟨0, 0, 0⟩) ≠ ⟨0, 0, 0⟩ := by
  rw [cross_real]
  unfold minus
  intro h
  rw [V3.mk.injEq] at h
  norm_num at h

example : (Any.sideNormal (⟨0, 0⟩ : Any.V2 ℝ) ⟨1, 0⟩).x + (Any.sideNormal (⟨1, 0⟩ : Any.V2 ℝ) ⟨1, 1⟩).x ≠ 0 := by
  rw [sideNormal_real (by intro h; rw [Any.V2.mk.injEq] at h; norm_num at h),
    sideNormal_real (by intro h; rw [Any.V2.mk.injEq] at h; norm_num at h)]
  unfold dist2
  norm_num

end Vpin
