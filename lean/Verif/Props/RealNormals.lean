import Verif.Props.RealRamp
/-
C92: the rotation of rubbers, the normals of generated meshes and walls, and the prism, with real numbers.
-/
namespace Vpin
open RealMesh

attribute [local instance] realNumbers

/-- an angle in degrees -/
noncomputable def degreesOf (a : ℝ) : ℝ := a * Real.pi / 180

/-- **C92**, rotation of a rubber. With real numbers, a rubber is turned about the x axis, then about the y axis, then
about the z axis by its three angles, so that lengths and angles are kept. -/
theorem C92_turned (rot v : V3 ℝ) :
    Any.turned rot v =
      Geometry.turnZ (Real.cos (degreesOf rot.z)) (Real.sin (degreesOf rot.z))
        (Geometry.turnY (Real.cos (degreesOf rot.y)) (Real.sin (degreesOf rot.y))
          (Geometry.turnX (Real.cos (degreesOf rot.x)) (Real.sin (degreesOf rot.x)) v)) ∧
    ∀ w, dot (Any.turned rot v) (Any.turned rot w) = dot v w := by
  have main : ∀ v : V3 ℝ, Any.turned rot v =
      Geometry.turnZ (Real.cos (degreesOf rot.z)) (Real.sin (degreesOf rot.z))
        (Geometry.turnY (Real.cos (degreesOf rot.y)) (Real.sin (degreesOf rot.y))
          (Geometry.turnX (Real.cos (degreesOf rot.x)) (Real.sin (degreesOf rot.x)) v)) := by
    intro v
    unfold Any.turned
    simp only [rn_add, rn_sub, rn_mul, rn_div, rn_neg, rn_sin, rn_cos, rn_pi, rn_straight, Bool.and_eq_true, rn_isZero]
    unfold Geometry.turnZ Geometry.turnY Geometry.turnX degreesOf
    dsimp only
    split <;> rename_i h
    · rw [h.1.1, h.1.2, h.2]
      cases v
      simp
    · simp only [V3.mk.injEq]
      refine ⟨?_, ?_, ?_⟩ <;> ring
  refine ⟨main v, fun w => ?_⟩
  rw [main, main]
  have hx := Real.cos_sq_add_sin_sq (degreesOf rot.x)
  have hy := Real.cos_sq_add_sin_sq (degreesOf rot.y)
  have hz := Real.cos_sq_add_sin_sq (degreesOf rot.z)
  generalize Real.cos (degreesOf rot.x) = cx at *
  generalize Real.sin (degreesOf rot.x) = sx at *
  generalize Real.cos (degreesOf rot.y) = cy at *
  generalize Real.sin (degreesOf rot.y) = sy at *
  generalize Real.cos (degreesOf rot.z) = cz at *
  generalize Real.sin (degreesOf rot.z) = sz at *
  have stepZ : ∀ a b : V3 ℝ, dot (Geometry.turnZ cz sz a) (Geometry.turnZ cz sz b) = dot a b := by
    intro a b
    unfold dot Geometry.turnZ
    dsimp only
    linear_combination (a.x * b.x + a.y * b.y) * hz
  have stepY : ∀ a b : V3 ℝ, dot (Geometry.turnY cy sy a) (Geometry.turnY cy sy b) = dot a b := by
    intro a b
    unfold dot Geometry.turnY
    dsimp only
    linear_combination (a.x * b.x + a.z * b.z) * hy
  have stepX : ∀ a b : V3 ℝ, dot (Geometry.turnX cx sx a) (Geometry.turnX cx sx b) = dot a b := by
    intro a b
    unfold dot Geometry.turnX
    dsimp only
    linear_combination (a.y * b.y + a.z * b.z) * hx
  rw [stepZ, stepY, stepX]

/-- **C92**, normal of a face. With real numbers, the normal of a triangle with three corners not in a line has length one,
is perpendicular to its edges, and points to the side from which the corners are seen counterclockwise. -/
theorem C92_face {a b c : V3 ℝ} (h : Any.cross (minus b a) (minus c a) ≠ ⟨0, 0, 0⟩) :
    let n := Any.faceNormal a b c
    UnitVector n ∧ dot n (minus b a) = 0 ∧ dot n (minus c a) = 0 ∧ dot n (minus c b) = 0 ∧
      0 < triple n (minus b a) (minus c a) := by
  have hu := unit3_real h
  have e : Any.faceNormal a b c = Any.unit3 (Any.cross (minus b a) (minus c a)) := rfl
  dsimp only
  rw [e]
  have h1 := direction_dot hu (dot_cross_left _ _)
  have h2 := direction_dot hu (dot_cross_right _ _)
  refine ⟨hu.1, h1, h2, ?_, ?_⟩
  · generalize Any.unit3 (Any.cross (minus b a) (minus c a)) = n at *
    unfold dot minus at *
    dsimp only at *
    linear_combination h2 - h1
  · obtain ⟨hn, k, hk, ek⟩ := hu
    have hn : dot _ _ = 1 := hn
    unfold dot at hn
    generalize (Any.unit3 (Any.cross (minus b a) (minus c a))) = n at *
    rw [cross_real, V3.mk.injEq] at ek
    unfold triple
    rw [ek.1, ek.2.1, ek.2.2]
    have : n.x * (k * n.x) + n.y * (k * n.y) + n.z * (k * n.z) = k := by linear_combination k * hn
    rw [this]
    exact hk

/-- the sum of vectors -/
def sumOf (ns : List (V3 ℝ)) : V3 ℝ := ⟨(ns.map (·.x)).sum, (ns.map (·.y)).sum, (ns.map (·.z)).sum⟩

theorem total_real (ns : List (V3 ℝ)) (s : V3 ℝ) :
    ns.foldl (fun a b => V3.mk (Ops.add a.x b.x) (Ops.add a.y b.y) (Ops.add a.z b.z)) s =
      ⟨s.x + (sumOf ns).x, s.y + (sumOf ns).y, s.z + (sumOf ns).z⟩ := by
  induction ns generalizing s with
  | nil => unfold sumOf; cases s; simp
  | cons n ns ih =>
    rw [List.foldl_cons, ih]
    unfold sumOf
    simp only [rn_add, List.map_cons, List.sum_cons, V3.mk.injEq]
    refine ⟨?_, ?_, ?_⟩ <;> ring

/-- **C92**, normal of a vertex. With real numbers, the normal of a vertex is the direction of the sum of the normals of its
faces, and zero if they cancel; if all its faces have the same normal, it is that. -/
theorem C92_mean (ns : List (V3 ℝ)) :
    (sumOf ns ≠ ⟨0, 0, 0⟩ → DirectionOf (Any.mean ns) (sumOf ns)) ∧
    (sumOf ns = ⟨0, 0, 0⟩ → Any.mean ns = ⟨0, 0, 0⟩) ∧
    (∀ n, UnitVector n → ns ≠ [] → (∀ m ∈ ns, m = n) → Any.mean ns = n) := by
  have et : Any.total ns = sumOf ns := by
    unfold Any.total
    rw [total_real]
    simp [rn_zero]
  have dirOf : ∀ s : V3 ℝ, s ≠ ⟨0, 0, 0⟩ → DirectionOf (Any.direction s) s := by
    intro s hs
    have hd : 0 < √(s.x * s.x + s.y * s.y + s.z * s.z) := Real.sqrt_pos.2 (dot_pos hs)
    have e : Any.direction s = Any.unit3 s := by
      unfold Any.direction Any.unit3
      simp only [rn_add, rn_mul, rn_sqrt, rn_isZero, rn_div, rn_less, rn_zero]
      rw [if_pos hd, if_neg hd.ne']
    rw [e]
    exact unit3_real hs
  have first : sumOf ns ≠ ⟨0, 0, 0⟩ → DirectionOf (Any.mean ns) (sumOf ns) := by
    intro hs
    unfold Any.mean
    rw [et]
    exact dirOf _ hs
  refine ⟨first, ?_, ?_⟩
  · intro hs
    unfold Any.mean
    rw [et, hs]
    unfold Any.direction
    simp only [rn_add, rn_mul, rn_sqrt, rn_div, rn_less, rn_zero]
    simp
  · intro n hn hne hall
    have hk : ∀ ns : List (V3 ℝ), (∀ m ∈ ns, m = n) →
        sumOf ns = ⟨ns.length * n.x, ns.length * n.y, ns.length * n.z⟩ := by
      intro ns
      induction ns with
      | nil => intro _; unfold sumOf; simp
      | cons m ns ih =>
        intro h
        have ih := ih fun m hm => h m (List.mem_cons_of_mem _ hm)
        unfold sumOf at ih ⊢
        rw [V3.mk.injEq] at ih
        simp only [List.map_cons, List.sum_cons, ih.1, ih.2.1, ih.2.2, h m List.mem_cons_self, List.length_cons,
          V3.mk.injEq]
        push_cast
        refine ⟨?_, ?_, ?_⟩ <;> ring
    have hl : (0 : ℝ) < ns.length := by exact_mod_cast List.length_pos_iff.2 hne
    have es := hk ns hall
    have hs : sumOf ns ≠ ⟨0, 0, 0⟩ := by
      intro h
      rw [es, V3.mk.injEq] at h
      have hx := (mul_eq_zero.1 h.1).resolve_left hl.ne'
      have hy := (mul_eq_zero.1 h.2.1).resolve_left hl.ne'
      have hz := (mul_eq_zero.1 h.2.2).resolve_left hl.ne'
      have hn : n.x * n.x + n.y * n.y + n.z * n.z = 1 := hn
      rw [hx, hy, hz] at hn
      norm_num at hn
    obtain ⟨hu, k, hkp, ek⟩ := first hs
    rw [es, V3.mk.injEq] at ek
    have hu : (Any.mean ns).x * (Any.mean ns).x + (Any.mean ns).y * (Any.mean ns).y +
      (Any.mean ns).z * (Any.mean ns).z = 1 := hu
    have hn : n.x * n.x + n.y * n.y + n.z * n.z = 1 := hn
    have hlk : (ns.length : ℝ) = k := by
      apply (mul_self_inj hl.le hkp.le).1
      have e1 : (ns.length : ℝ) * ns.length * 1 = k * k * 1 := by
        rw [← hn]
        conv => rhs; rw [hn, ← hu]
        linear_combination (ns.length * n.x + k * (Any.mean ns).x) * ek.1 +
          (ns.length * n.y + k * (Any.mean ns).y) * ek.2.1 + (ns.length * n.z + k * (Any.mean ns).z) * ek.2.2
      linarith
    rw [hlk] at ek
    have ex := mul_left_cancel₀ hkp.ne' ek.1
    have ey := mul_left_cancel₀ hkp.ne' ek.2.1
    have ez := mul_left_cancel₀ hkp.ne' ek.2.2
    generalize Any.mean ns = m at *
    cases m; cases n
    dsimp only at *
    rw [ex, ey, ez]

/-- the side of a wall over an edge -/
theorem sideNormal_real {p q : Any.V2 ℝ} (h : p ≠ q) :
    Any.sideNormal p q = ⟨(p.y - q.y) / dist2 p q, (p.x - q.x) / dist2 p q⟩ := by
  obtain ⟨hd, -⟩ := dist2_pos h
  have e : √((p.x - q.x) * (p.x - q.x) + (p.y - q.y) * (p.y - q.y)) = dist2 p q := by
    unfold dist2
    congr 1
    ring
  unfold Any.sideNormal
  simp only [rn_add, rn_sub, rn_mul, rn_div, rn_sqrt, rn_isZero, e]
  exact if_neg hd.ne'

theorem unit2_real {a : Any.V2 ℝ} (h : a.x * a.x + a.y * a.y ≠ 0) :
    ∃ k > 0, a = ⟨k * (Any.unit2 a).x, k * (Any.unit2 a).y⟩ ∧
      (Any.unit2 a).x * (Any.unit2 a).x + (Any.unit2 a).y * (Any.unit2 a).y = 1 := by
  have hpos : 0 < a.x * a.x + a.y * a.y :=
    lt_of_le_of_ne (add_nonneg (mul_self_nonneg _) (mul_self_nonneg _)) (Ne.symm h)
  have hd := Real.sqrt_pos.2 hpos
  have hdd := Real.mul_self_sqrt hpos.le
  have e : Any.unit2 a = ⟨a.x / √(a.x * a.x + a.y * a.y), a.y / √(a.x * a.x + a.y * a.y)⟩ := by
    unfold Any.unit2
    simp only [rn_add, rn_mul, rn_div, rn_sqrt, rn_isZero]
    exact if_neg hd.ne'
  refine ⟨_, hd, ?_, ?_⟩
  · rw [e]
    cases a
    dsimp only at *
    congr 1 <;> rw [mul_div_cancel₀ _ hd.ne']
  · rw [e]
    dsimp only
    generalize √(a.x * a.x + a.y * a.y) = d at *
    field_simp
    linear_combination -hdd

/-- **C92**, normals of walls. With real numbers, the normal of a vertex of the side of a wall over the edge from `p` to `q`
at a point that is not smooth is the normal of the two triangles of the side: horizontal, of length one, and perpendicular to
the edge. -/
theorem C92_wall {p q : Any.V2 ℝ} (h : p ≠ q) (left right : Any.V2 ℝ) {bottom top : ℝ} (hb : bottom < top) :
    let n := Any.wallNormal false (Any.sideNormal p q) left right
    UnitVector n ∧ n.z = 0 ∧ n.x * (q.x - p.x) + n.y * (q.y - p.y) = 0 ∧
      Any.faceNormal ⟨p.x, p.y, bottom⟩ ⟨p.x, p.y, top⟩ ⟨q.x, q.y, top⟩ = n ∧
      Any.faceNormal ⟨p.x, p.y, bottom⟩ ⟨q.x, q.y, top⟩ ⟨q.x, q.y, bottom⟩ = n := by
  obtain ⟨hd, hdd⟩ := dist2_pos h
  have e : Any.wallNormal false (Any.sideNormal p q) left right =
      ⟨(p.y - q.y) / dist2 p q, -((p.x - q.x) / dist2 p q), 0⟩ := by
    unfold Any.wallNormal
    rw [sideNormal_real h]
    have hone : (p.y - q.y) / dist2 p q * ((p.y - q.y) / dist2 p q) + (p.x - q.x) / dist2 p q * ((p.x - q.x) / dist2 p q) = 1 := by
      generalize dist2 p q = d at *
      field_simp
      linear_combination -hdd
    simp only [Bool.false_eq_true, if_false]
    unfold Any.unit2
    simp only [rn_add, rn_mul, rn_div, rn_sqrt, rn_isZero, hone, Real.sqrt_one, rn_neg, rn_zero]
    norm_num
  have eu : UnitVector (Any.wallNormal false (Any.sideNormal p q) left right) := by
    rw [e]
    unfold UnitVector dot
    dsimp only
    generalize dist2 p q = d at *
    field_simp
    linear_combination -hdd
  -- a vector that is a positive multiple of `n` has the direction `n`
  have along : ∀ v : V3 ℝ, ∀ k > 0, v = ⟨k * ((p.y - q.y) / dist2 p q), k * (-((p.x - q.x) / dist2 p q)), 0⟩ →
      Any.unit3 v = Any.wallNormal false (Any.sideNormal p q) left right := by
    intro v k hk hv
    rw [e]
    have hone : (p.y - q.y) / dist2 p q * ((p.y - q.y) / dist2 p q) + (p.x - q.x) / dist2 p q * ((p.x - q.x) / dist2 p q) = 1 := by
      generalize dist2 p q = d at *
      field_simp
      linear_combination -hdd
    generalize (p.y - q.y) / dist2 p q = a at *
    generalize (p.x - q.x) / dist2 p q = b at *
    have hs : √(v.x * v.x + v.y * v.y + v.z * v.z) = k := by
      rw [hv]
      dsimp only
      rw [show k * a * (k * a) + k * -b * (k * -b) + 0 * 0 = k * k by linear_combination k * k * hone]
      exact Real.sqrt_mul_self hk.le
    unfold Any.unit3
    simp only [rn_add, rn_mul, rn_div, rn_sqrt, rn_isZero, hs]
    rw [if_neg hk.ne', hv]
    dsimp only
    simp only [V3.mk.injEq]
    refine ⟨?_, ?_, by simp⟩ <;> field_simp
  dsimp only
  refine ⟨eu, ?_, ?_, ?_, ?_⟩
  · rw [e]
  · rw [e]
    dsimp only
    ring
  · refine along _ ((top - bottom) * dist2 p q) (mul_pos (by linarith) hd) ?_
    rw [cross_real]
    simp only [rn_sub, V3.mk.injEq]
    refine ⟨?_, ?_, ?_⟩
    · field_simp; ring
    · field_simp; ring
    · ring
  · refine along _ ((top - bottom) * dist2 p q) (mul_pos (by linarith) hd) ?_
    rw [cross_real]
    simp only [rn_sub, V3.mk.injEq]
    refine ⟨?_, ?_, ?_⟩
    · field_simp; ring
    · field_simp; ring
    · ring

/-- **C92**, smooth points of walls. With real numbers, the normal at a smooth point is horizontal, of length one, and
between the normals of both sides: it makes the same angle, less than a right angle, with both. The outline must not turn
back on itself there. -/
theorem C92_wall_smooth {o p q : Any.V2 ℝ} (h1 : o ≠ p) (h2 : p ≠ q) (own left right : Any.V2 ℝ)
    (hback : (Any.sideNormal o p).x + (Any.sideNormal p q).x ≠ 0 ∨ (Any.sideNormal o p).y + (Any.sideNormal p q).y ≠ 0) :
    let n := Any.wallNormal true own (Any.sideNormal o p) (Any.sideNormal p q)
    let l := Any.wallNormal false (Any.sideNormal o p) left right
    let r := Any.wallNormal false (Any.sideNormal p q) left right
    UnitVector n ∧ n.z = 0 ∧ dot n l = dot n r ∧ 0 < dot n l := by
  obtain ⟨hd, hdd⟩ := dist2_pos h1
  obtain ⟨he, hee⟩ := dist2_pos h2
  have one : ∀ {p q : Any.V2 ℝ}, p ≠ q → (Any.sideNormal p q).x * (Any.sideNormal p q).x +
      (Any.sideNormal p q).y * (Any.sideNormal p q).y = 1 ∧
      Any.wallNormal false (Any.sideNormal p q) left right = ⟨(Any.sideNormal p q).x, -(Any.sideNormal p q).y, 0⟩ := by
    intro p q h
    obtain ⟨hd, hdd⟩ := dist2_pos h
    have hone : (Any.sideNormal p q).x * (Any.sideNormal p q).x + (Any.sideNormal p q).y * (Any.sideNormal p q).y = 1 := by
      rw [sideNormal_real h]
      dsimp only
      generalize dist2 p q = d at *
      field_simp
      linear_combination -hdd
    refine ⟨hone, ?_⟩
    unfold Any.wallNormal Any.unit2
    simp only [Bool.false_eq_true, if_false, rn_add, rn_mul, rn_div, rn_sqrt, rn_isZero, hone, Real.sqrt_one, rn_neg, rn_zero]
    norm_num
  obtain ⟨l1, l2⟩ := one h1
  obtain ⟨r1, r2⟩ := one h2
  dsimp only
  rw [l2, r2]
  generalize Any.sideNormal o p = l at *
  generalize Any.sideNormal p q = r at *
  have hne : (l.x + r.x) * (l.x + r.x) + (l.y + r.y) * (l.y + r.y) ≠ 0 := by
    intro h
    have hx := mul_self_nonneg (l.x + r.x)
    have hy := mul_self_nonneg (l.y + r.y)
    rcases hback with hb | hb
    · exact hb (mul_self_eq_zero.1 (by linarith))
    · exact hb (mul_self_eq_zero.1 (by linarith))
  obtain ⟨k, hk, ek, hu⟩ := unit2_real (a := ⟨l.x + r.x, l.y + r.y⟩) hne
  have en : Any.wallNormal true own l r = ⟨(Any.unit2 (⟨l.x + r.x, l.y + r.y⟩ : Any.V2 ℝ)).x,
      -(Any.unit2 (⟨l.x + r.x, l.y + r.y⟩ : Any.V2 ℝ)).y, 0⟩ := rfl
  rw [en]
  generalize Any.unit2 (⟨l.x + r.x, l.y + r.y⟩ : Any.V2 ℝ) = u at *
  rw [Any.V2.mk.injEq] at ek
  unfold UnitVector dot
  dsimp only
  have hk1 : k * (u.x * l.x + u.y * l.y) = 1 + (l.x * r.x + l.y * r.y) := by
    linear_combination (-l.x) * ek.1 - l.y * ek.2 + l1
  have hk2 : k * (u.x * r.x + u.y * r.y) = 1 + (l.x * r.x + l.y * r.y) := by
    linear_combination (-r.x) * ek.1 - r.y * ek.2 + r1
  have hkk : k * k = 2 * (1 + (l.x * r.x + l.y * r.y)) := by
    linear_combination (-(k * k)) * hu - (k * u.x + l.x + r.x) * ek.1 - (k * u.y + l.y + r.y) * ek.2 + l1 + r1
  have hpos : 0 < 1 + (l.x * r.x + l.y * r.y) := by
    have := mul_pos hk hk
    linarith
  have hsame : u.x * l.x + u.y * l.y = u.x * r.x + u.y * r.y := mul_left_cancel₀ hk.ne' (by rw [hk1, hk2])
  refine ⟨by linear_combination hu, rfl, by linear_combination hsame, ?_⟩
  have : 0 < k * (u.x * l.x + u.y * l.y) := hk1 ▸ hpos
  have h3 := (mul_pos_iff_of_pos_left hk).1 this
  linarith

end Vpin
