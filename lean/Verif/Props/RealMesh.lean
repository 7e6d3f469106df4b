import Mathlib.Tactic.LinearCombination
import Mathlib.Tactic.FieldSimp
import Mathlib.Tactic.Positivity
import Mathlib.Tactic.Linarith
import Verif.Spec.RealMesh
import Verif.Spec.Placement
/-
C92: what the mesh generators compute, apart from rounding.
-/
namespace Vpin
open RealMesh

attribute [local instance] realNumbers

theorem rn_add (a b : ℝ) : Ops.add a b = a + b := rfl
theorem rn_sub (a b : ℝ) : Ops.sub a b = a - b := rfl
theorem rn_mul (a b : ℝ) : Ops.mul a b = a * b := rfl
theorem rn_div (a b : ℝ) : Ops.div a b = a / b := rfl
theorem rn_neg (a : ℝ) : Ops.neg a = -a := rfl
theorem rn_zero : (Ops.zero : ℝ) = 0 := rfl
theorem rn_one : (Ops.one : ℝ) = 1 := rfl
theorem rn_sin (a : ℝ) : Ops.sin a = Real.sin a := rfl
theorem rn_cos (a : ℝ) : Ops.cos a = Real.cos a := rfl
theorem rn_sqrt (a : ℝ) : Numbers.sqrt a = √a := rfl
theorem rn_abs (a : ℝ) : Numbers.abs a = |a| := rfl
theorem rn_isZero (a : ℝ) : (Numbers.isZero a = true) = (a = 0) := by
  show (decide (a = 0) = true) = _
  simp
theorem rn_less (a b : ℝ) : (Numbers.less a b = true) = (a < b) := by
  show (decide (a < b) = true) = _
  simp
theorem rn_ofNat (n : Nat) : (Numbers.ofNat n : ℝ) = n := rfl
theorem rn_half : (Numbers.half : ℝ) = 1 / 2 := rfl
theorem rn_two : (Numbers.two : ℝ) = 2 := rfl
theorem rn_pi : (Numbers.pi : ℝ) = Real.pi := rfl
theorem rn_straight : (Numbers.straight : ℝ) = 180 := rfl
theorem rn_full : (Numbers.full : ℝ) = 360 := rfl
theorem rn_small : (Numbers.small : ℝ) = 1 / 10 ^ 4 := rfl
theorem rn_tiny : (Numbers.tiny : ℝ) = 1 / 10 ^ 12 := rfl

theorem dot_pos {v : V3 ℝ} (h : v ≠ ⟨0, 0, 0⟩) : 0 < dot v v := by
  by_contra hn
  have hx := mul_self_nonneg v.x
  have hy := mul_self_nonneg v.y
  have hz := mul_self_nonneg v.z
  have hn : v.x * v.x + v.y * v.y + v.z * v.z ≤ 0 := not_lt.1 hn
  apply h
  cases v with
  | mk x y z =>
    dsimp only at *
    rw [mul_self_eq_zero.1 (by linarith : x * x = 0), mul_self_eq_zero.1 (by linarith : y * y = 0),
      mul_self_eq_zero.1 (by linarith : z * z = 0)]

theorem unit3_real {v : V3 ℝ} (h : v ≠ ⟨0, 0, 0⟩) : DirectionOf (Any.unit3 v) v := by
  have hd := dot_pos h
  have hs : 0 < √(dot v v) := Real.sqrt_pos.2 hd
  have e : Any.unit3 v = ⟨v.x / √(dot v v), v.y / √(dot v v), v.z / √(dot v v)⟩ := by
    unfold Any.unit3
    simp only [rn_add, rn_mul, rn_sqrt, rn_isZero, rn_div]
    exact if_neg (ne_of_gt hs)
  have hm : √(dot v v) * √(dot v v) = dot v v := Real.mul_self_sqrt hd.le
  refine ⟨?_, √(dot v v), hs, ?_⟩
  · rw [e]
    show v.x / √(dot v v) * (v.x / √(dot v v)) + v.y / √(dot v v) * (v.y / √(dot v v)) +
      v.z / √(dot v v) * (v.z / √(dot v v)) = 1
    have : v.x / √(dot v v) * (v.x / √(dot v v)) + v.y / √(dot v v) * (v.y / √(dot v v)) +
      v.z / √(dot v v) * (v.z / √(dot v v)) = (v.x * v.x + v.y * v.y + v.z * v.z) / (√(dot v v) * √(dot v v)) := by
      field_simp
    rw [this, hm]
    exact div_self hd.ne'
  · rw [e]
    cases v with
    | mk x y z =>
      dsimp only
      congr 1 <;> field_simp

/-- a direction is perpendicular to whatever its vector is -/
theorem direction_dot {a s v : V3 ℝ} (h : DirectionOf a s) (hv : dot s v = 0) : dot a v = 0 := by
  obtain ⟨-, k, hk, rfl⟩ := h
  have : k * dot a v = 0 := by
    unfold dot at *
    dsimp only at hv
    linear_combination hv
  exact (mul_eq_zero.1 this).resolve_left hk.ne'

theorem cross_real (a b : V3 ℝ) :
    Any.cross a b = ⟨a.y * b.z - a.z * b.y, a.z * b.x - a.x * b.z, a.x * b.y - a.y * b.x⟩ := rfl

theorem dot_cross_left (a b : V3 ℝ) : dot (Any.cross a b) a = 0 := by
  rw [cross_real]; unfold dot; dsimp only; ring

theorem dot_cross_right (a b : V3 ℝ) : dot (Any.cross a b) b = 0 := by
  rw [cross_real]; unfold dot; dsimp only; ring

theorem dot_comm (a b : V3 ℝ) : dot a b = dot b a := by unfold dot; ring

theorem dot_zero (v : V3 ℝ) : dot v ⟨0, 0, 0⟩ = 0 := by unfold dot; simp

/-- the length of a cross product -/
theorem dot_cross_self (a b : V3 ℝ) :
    dot (Any.cross a b) (Any.cross a b) = dot a a * dot b b - dot a b * dot a b := by
  rw [cross_real]; unfold dot; dsimp only; ring

/-- the normals of a ring: of length one and perpendicular to the direction of the tube -/
structure GoodFrame (t n b : V3 ℝ) : Prop where
  n_unit : UnitVector n
  n_perp : dot n t = 0
  b_unit : UnitVector b
  b_perp : dot b t = 0

theorem goodFrame_of {t n : V3 ℝ} (ht : t ≠ ⟨0, 0, 0⟩) (hn : n ≠ ⟨0, 0, 0⟩) (hp : dot n t = 0) :
    GoodFrame t (Any.unit3 n) (Any.unit3 (Any.cross t n)) := by
  have hc : Any.cross t n ≠ ⟨0, 0, 0⟩ := by
    intro h
    have e := dot_cross_self t n
    rw [h, dot_zero, dot_comm t n, hp] at e
    have : 0 < dot t t * dot n n := mul_pos (dot_pos ht) (dot_pos hn)
    linarith
  exact ⟨(unit3_real hn).1, direction_dot (unit3_real hn) hp, (unit3_real hc).1,
    direction_dot (unit3_real hc) (dot_cross_left t n)⟩

theorem crossPlane_eq {t u : V3 ℝ} (h : t.z = 0) : Any.crossPlane t u = Any.cross t u := by
  rw [cross_real]
  show (⟨t.y * u.z, -t.x * u.z, t.x * u.y - t.y * u.x⟩ : V3 ℝ) = _
  rw [h]
  congr 1 <;> ring

theorem frame_good {first : V3 ℝ → V3 ℝ → V3 ℝ} {t : Nat → V3 ℝ} {up : V3 ℝ} {N : Nat}
    (hfirst : ∀ u, first (t 0) u = Any.cross (t 0) u) (h0 : Any.cross (t 0) up ≠ ⟨0, 0, 0⟩)
    (hturn : ∀ i < N, dot (t i) (t (i + 1)) ≠ 0) :
    ∀ i ≤ N, t i ≠ ⟨0, 0, 0⟩ ∧ GoodFrame (t i) (Any.frame first t up i).1 (Any.frame first t up i).2 := by
  intro i
  induction i with
  | zero =>
    intro _
    have ht : t 0 ≠ ⟨0, 0, 0⟩ := by
      intro h
      apply h0
      rw [h, cross_real]
      simp
    refine ⟨ht, ?_⟩
    unfold Any.frame
    dsimp only
    rw [hfirst, hfirst]
    exact goodFrame_of ht h0 (dot_cross_left _ _)
  | succ i ih =>
    intro hi
    obtain ⟨-, g⟩ := ih (by omega)
    have hd := hturn i (by omega)
    have ht : t (i + 1) ≠ ⟨0, 0, 0⟩ := fun h => hd (by rw [h, dot_zero])
    refine ⟨ht, ?_⟩
    unfold Any.frame
    dsimp only
    refine goodFrame_of ht ?_ (dot_cross_right _ _)
    intro h
    apply hd
    generalize (Any.frame first t up i).2 = b at *
    have hb : b.x * b.x + b.y * b.y + b.z * b.z = 1 := g.b_unit
    have hp : b.x * (t i).x + b.y * (t i).y + b.z * (t i).z = 0 := g.b_perp
    rw [cross_real] at h
    have hx := congrArg V3.x h
    have hy := congrArg V3.y h
    have hz := congrArg V3.z h
    dsimp only at hx hy hz
    unfold dot
    generalize t i = s at *
    generalize t (i + 1) = r at *
    have ex : r.x = b.x * (b.x * r.x + b.y * r.y + b.z * r.z) := by
      linear_combination (-r.x) * hb + b.z * hy - b.y * hz
    have ey : r.y = b.y * (b.x * r.x + b.y * r.y + b.z * r.z) := by
      linear_combination (-r.y) * hb + b.x * hz - b.z * hx
    have ez : r.z = b.z * (b.x * r.x + b.y * r.y + b.z * r.z) := by
      linear_combination (-r.z) * hb + b.y * hx - b.x * hy
    linear_combination s.x * ex + s.y * ey + s.z * ez + (b.x * r.x + b.y * r.y + b.z * r.z) * hp

/-- turning a vector perpendicular to the axis -/
theorem rotatedAxis_real {a : ℝ} {t n : V3 ℝ} (ht : t ≠ ⟨0, 0, 0⟩) (hp : dot n t = 0) :
    Any.rotatedAxis a t n =
      let c := Real.cos (a * Real.pi / 180)
      let s := Real.sin (a * Real.pi / 180)
      let w := Any.cross (Any.unit3 t) n
      ⟨c * n.x + s * w.x, c * n.y + s * w.y, c * n.z + s * w.z⟩ := by
  have hu : dot (Any.unit3 t) n = 0 := direction_dot (unit3_real ht) (by rw [dot_comm]; exact hp)
  unfold Any.rotatedAxis
  generalize Any.unit3 t = u at *
  rw [cross_real]
  unfold dot at hu
  simp only [rn_add, rn_sub, rn_mul, rn_div, rn_one, rn_sin, rn_cos, rn_pi, rn_straight, V3.mk.injEq]
  refine ⟨?_, ?_, ?_⟩
  · linear_combination u.x * (1 - Real.cos (a * Real.pi / 180)) * hu
  · linear_combination u.y * (1 - Real.cos (a * Real.pi / 180)) * hu
  · linear_combination u.z * (1 - Real.cos (a * Real.pi / 180)) * hu

/-- **C92**, tubes. With real numbers, every ring of a wire or of a rubber is a regular polygon in a circle of the given
thickness around a point of its line, in the plane perpendicular to the line there. The line must not start in the
direction `up` its first ring is built from, and must nowhere turn by a right angle. -/
theorem C92_round {first : V3 ℝ → V3 ℝ → V3 ℝ} {t : Nat → V3 ℝ} {up : V3 ℝ} {N : Nat} (thickness : ℝ) (S : Nat)
    (hfirst : first = Any.cross ∨ (first = Any.crossPlane ∧ (t 0).z = 0))
    (h0 : Any.cross (t 0) up ≠ ⟨0, 0, 0⟩) (hturn : ∀ i < N, dot (t i) (t (i + 1)) ≠ 0) :
    ∀ i ≤ N, RegularRing (t i) (thickness / 2) S (Any.spoke first t up thickness S i) := by
  intro i hi
  have hf : ∀ u, first (t 0) u = Any.cross (t 0) u := by
    rcases hfirst with rfl | ⟨rfl, hz⟩
    · intro u; rfl
    · intro u; exact crossPlane_eq hz
  obtain ⟨ht, g⟩ := frame_good hf h0 hturn i hi
  have hn : UnitVector (Any.frame first t up i).1 := g.n_unit
  have hp : dot (Any.frame first t up i).1 (t i) = 0 := g.n_perp
  have e : ∀ j, Any.spoke first t up thickness S i j =
      let a : ℝ := 2 * Real.pi * j / S
      let n := (Any.frame first t up i).1
      let w := Any.cross (Any.unit3 (t i)) n
      ⟨(Real.cos a * n.x + Real.sin a * w.x) * (thickness / 2), (Real.cos a * n.y + Real.sin a * w.y) * (thickness / 2),
        (Real.cos a * n.z + Real.sin a * w.z) * (thickness / 2)⟩ := by
    intro j
    unfold Any.spoke
    rw [rotatedAxis_real ht hp]
    simp only [rn_mul, rn_div, rn_one, rn_ofNat, rn_full, rn_half]
    have : (j : ℝ) * 360 * (1 / S) * Real.pi / 180 = 2 * Real.pi * j / S := by ring
    rw [this, show thickness * (1 / 2) = thickness / 2 by ring]
  have hu := unit3_real ht
  have hw : dot (Any.cross (Any.unit3 (t i)) (Any.frame first t up i).1) (t i) = 0 := by
    obtain ⟨-, k, hk, ek⟩ := hu
    have := dot_cross_left (Any.unit3 (t i)) (Any.frame first t up i).1
    generalize Any.cross (Any.unit3 (t i)) (Any.frame first t up i).1 = w at *
    rw [ek]
    unfold dot at *
    dsimp only
    linear_combination k * this
  have hnu : dot (Any.unit3 (t i)) (Any.frame first t up i).1 = 0 := direction_dot hu (by rw [dot_comm]; exact hp)
  have hww := dot_cross_self (Any.unit3 (t i)) (Any.frame first t up i).1
  have hwn := dot_cross_right (Any.unit3 (t i)) (Any.frame first t up i).1
  rw [hnu, show dot (Any.unit3 (t i)) (Any.unit3 (t i)) = 1 from hu.1, show dot _ _ = 1 from hn] at hww
  constructor
  · intro j
    rw [e]
    dsimp only
    generalize Any.cross (Any.unit3 (t i)) (Any.frame first t up i).1 = w at *
    generalize (Any.frame first t up i).1 = n at *
    unfold dot at *
    dsimp only
    linear_combination (Real.cos (2 * Real.pi * j / S) * (thickness / 2)) * hp +
      (Real.sin (2 * Real.pi * j / S) * (thickness / 2)) * hw
  · intro j k
    rw [e, e]
    dsimp only
    have ha : (2 * Real.pi * ((j : ℝ) - k) / S) = 2 * Real.pi * j / S - 2 * Real.pi * k / S := by ring
    rw [ha, Real.cos_sub]
    generalize Any.cross (Any.unit3 (t i)) (Any.frame first t up i).1 = w at *
    generalize (Any.frame first t up i).1 = n at *
    generalize 2 * Real.pi * (j : ℝ) / S = a
    generalize 2 * Real.pi * (k : ℝ) / S = b
    unfold UnitVector at hn
    unfold dot at *
    dsimp only
    linear_combination (thickness / 2 * (thickness / 2)) * (Real.cos a * Real.cos b * hn + Real.sin a * Real.sin b * hww +
      (Real.cos a * Real.sin b + Real.sin a * Real.cos b) * hwn)

end Vpin
