import Verif.Lemmas.NearPair
import Verif.Props.RoundingFlipper
import Verif.Props.RoundingLathe
/-
C96: the rounding of the normals of plungers, and of the discs that close them.
-/
namespace Vpin
open Rounding Geometry Scene

section
variable {sin cos : F32 → F32} {pow : F32 → F32 → F32} {V W D : ℝ}

/-- the coordinates of a point of a ring across the axis -/
theorem wheel_cell (T : CloseTrig sin cos) (hV' : V ≤ 2 ^ 90) {axis radius : F32} {c r : ℝ}
    (hc : Near 12 V axis c) (hr : Near 2 V radius r) {j : ℕ} (hj : j < 16) :
    let a := ieeeMul (eighths j) fPi
    let t := 2 * Real.pi * (j / 16)
    Near 12 V (ieeeMul radius (sin a.neg)) (-(r * Real.sin t)) ∧
      Near 13 (V + V) (ieeeAdd axis (ieeeMul radius (cos a.neg))) (c + r * Real.cos t) := by
  intro a t
  obtain ⟨af, ae⟩ := wheel_angle hj
  have big : (2 : ℝ) ^ 90 + 2 ^ 90 ≤ 2 ^ 100 := by norm_num
  have nf : a.neg.isFinite = true := by rw [neg_finite]; exact af
  have ne : |value a.neg - -t| ≤ (4 * (2 : ℕ) : ℝ) / 2 ^ 23 := by
    rw [value_neg, ← neg_sub', abs_neg]; exact ae
  have hs := trig_near (T.sin _ nf) Real.abs_sin_sub_sin_le (Real.abs_sin_le_one _) ne
  have hk := trig_near (T.cos _ nf) Real.abs_cos_sub_cos_le (Real.abs_cos_le_one _) ne
  rw [Real.sin_neg] at hs
  rw [Real.cos_neg] at hk
  have x1 := hr.mul hs (by omega) (by linarith)
  have z1 := hr.mul hk (by omega) (by linarith)
  rw [_root_.mul_one] at x1 z1
  rw [mul_neg] at x1
  exact ⟨x1, hc.add z1 (by omega) (by linarith)⟩

/-- the normal at a point of a ring -/
theorem wheel_normal (T : CloseTrig sin cos) (hV : 1 ≤ V) (hV' : V ≤ 2 ^ 57) {y axis radius : F32} {c r : ℝ}
    (hc : Near 12 V axis c) (hr : Near 2 V radius r) (h0 : V / 2 ^ 14 ≤ r) {j : ℕ} (hj : j < 16) (ring : RingSpec)
    (ey : ring.y = y) (ex : ring.radius = radius) (ef : ring.facing = none) :
    letI := ieee sin cos pow
    Within (V / (2 ^ 14 * r)) (ring.normal axis (ring.point axis j)) (wheelPoint 0 0 1 j) := by
  have big : (2 : ℝ) ^ 57 * 8 = 2 ^ 60 := by norm_num
  have big' : (2 : ℝ) ^ 60 ≤ 2 ^ 90 := by norm_num
  have big2 : (2 : ℝ) ^ 60 ≤ 2 ^ 100 := by norm_num
  obtain ⟨nx, nz⟩ := wheel_cell T (by linarith) hc hr hj
  have nd := nz.sub (hc.mono (show 12 ≤ 13 by omega)) (by omega) (by linarith)
  rw [add_sub_cancel_left] at nd
  have rpos : 0 < r := lt_of_lt_of_le (by positivity) h0
  have huv : -Real.sin (2 * Real.pi * (j / 16)) * -Real.sin (2 * Real.pi * (j / 16)) +
      Real.cos (2 * Real.pi * (j / 16)) * Real.cos (2 * Real.pi * (j / 16)) = 1 := by
    have := Real.sin_sq_add_cos_sq (2 * Real.pi * ((j : ℝ) / 16))
    linarith
  have dx := nx.le (by omega)
  have dz := nd.le (by omega)
  have ax := nx.atMost (by omega)
  have az := nd.atMost (by omega)
  push_cast at dx dz
  rw [← mul_neg] at dx
  have k1 : V * ((12 + 1) / 2 ^ 23) ≤ V / 2 ^ 17 := by
    rw [div_eq_mul_inv V]; exact mul_le_mul_of_nonneg_left (by norm_num) (by linarith)
  have k2 : (V + V + V) * ((14 + 1) / 2 ^ 23) ≤ V / 2 ^ 17 := by
    rw [div_eq_mul_inv V, show V + V + V = V * 3 by ring, mul_assoc]
    exact mul_le_mul_of_nonneg_left (by norm_num) (by linarith)
  have h8 : 8 * (V / 2 ^ 17) ≤ r := by
    refine le_trans (le_of_eq ?_) h0
    ring
  obtain ⟨s34, gx, gz⟩ := pair_direction huv (dx.trans k1) (dz.trans k2) h8 rpos
  have sq : (1 : ℝ) / 2 ^ 40 ≤ value (ieeeMul radius (sin (ieeeMul (eighths j) fPi).neg)) *
      value (ieeeMul radius (sin (ieeeMul (eighths j) fPi).neg)) +
      value (ieeeAdd (ieeeAdd axis (ieeeMul radius (cos (ieeeMul (eighths j) fPi).neg))) axis.neg) *
      value (ieeeAdd (ieeeAdd axis (ieeeMul radius (cos (ieeeMul (eighths j) fPi).neg))) axis.neg) := by
    have r1 : 1 / 2 ^ 14 ≤ r := le_trans (by gcongr) h0
    have := (Real.le_sqrt' (by positivity)).1 s34
    refine le_trans ?_ this
    calc (1 : ℝ) / 2 ^ 40 ≤ (1 / 2 ^ 14 * (3 / 4)) ^ 2 := by norm_num
      _ ≤ (r * (3 / 4)) ^ 2 := by gcongr
  obtain ⟨lp, lf, qx, qz⟩ := unit_pair (M := 6 * V) (atMost_mono ax (by linarith)) (atMost_mono az (by linarith))
    (by linarith) sq
  have rV : r ≤ V := (le_abs_self r).trans hr.bound
  have k3 : 4 * (V / 2 ^ 17) / r + 1 / 2 ^ 21 ≤ V / (2 ^ 14 * r) := by
    rw [show 4 * (V / 2 ^ 17) / r + 1 / 2 ^ 21 = (V / 2 ^ 15 + r / 2 ^ 21) / r by field_simp; ring,
      show V / (2 ^ 14 * r) = (V / 2 ^ 14) / r by rw [div_div]]
    refine div_le_div_of_nonneg_right ?_ rpos.le
    norm_num
    linarith
  have fin : ∀ {x : F32} {a b : ℝ}, Calc (1 / 2 ^ 21) x a → |a - b| ≤ 4 * (V / 2 ^ 17) / r →
      |value x - b| ≤ V / (2 ^ 14 * r) := by
    intro x a b h1 h2
    have := abs_add_le (value x - a) (a - b)
    rw [sub_add_sub_cancel] at this
    linarith [h1.2]
  obtain ⟨ry, rr, rt, rf⟩ := ring
  subst ex ef
  show Within _ (if ieeeLt 0 (ieeeSqrt (ieeeAdd (ieeeMul (ieeeMul rr (sin (ieeeMul (eighths j) fPi).neg))
    (ieeeMul rr (sin (ieeeMul (eighths j) fPi).neg))) (ieeeMul
    (ieeeAdd (ieeeAdd axis (ieeeMul rr (cos (ieeeMul (eighths j) fPi).neg))) axis.neg)
    (ieeeAdd (ieeeAdd axis (ieeeMul rr (cos (ieeeMul (eighths j) fPi).neg))) axis.neg)))) = true then _ else _) _
  rw [if_pos (lt_of_value lf lp)]
  refine ⟨⟨qx.1, exact_zero'.1, qz.1⟩, ?_, ?_, ?_⟩
  · have := fin qx gx
    show _ ≤ _
    rw [show (wheelPoint 0 0 1 j).x = -Real.sin (2 * Real.pi * (j / 16)) by unfold wheelPoint; simp]
    exact this
  · show |value 0 - 0| ≤ _
    rw [value_zero, sub_zero, abs_zero]; positivity
  · have := fin qz gz
    rw [show (wheelPoint 0 0 1 j).z = Real.cos (2 * Real.pi * (j / 16)) by unfold wheelPoint; simp]
    exact this

theorem sum_turn {f : ℕ → ℝ} (h : ∀ j, f (j + 8) = -f j) : ∑ j ∈ Finset.range 16, f j = 0 := by
  have h0 : f 8 = -f 0 := h 0
  have h1 : f 9 = -f 1 := h 1
  have h2 : f 10 = -f 2 := h 2
  have h3 : f 11 = -f 3 := h 3
  have h4 : f 12 = -f 4 := h 4
  have h5 : f 13 = -f 5 := h 5
  have h6 : f 14 = -f 6 := h 6
  have h7 : f 15 = -f 7 := h 7
  simp only [Finset.sum_range_succ, Finset.sum_range_zero]
  linarith

/-- a sum of numbers, as calculated -/
theorem sum_near {f : ℕ → F32} {g : ℕ → ℝ} {k : ℕ} {m : ℝ} (h : ∀ j, j < 16 → Near k m (f j) (g j)) (hk : k ≤ 1000)
    (hm : m ≤ 2 ^ 94) (m0 : 0 ≤ m) : ∀ n, n ≤ 16 →
    Near (k + n) (n * m) ((List.range n).foldl (fun acc j => ieeeAdd acc (f j)) 0) (∑ j ∈ Finset.range n, g j)
  | 0, _ => by
    rw [Nat.cast_zero, zero_mul]
    exact Near.zero.mono (by omega)
  | n + 1, hn => by
    have ih := sum_near h hk hm m0 n (by omega)
    rw [List.range_succ, List.foldl_append, Finset.sum_range_succ]
    have hR : (n : ℝ) ≤ 15 := by exact_mod_cast (show n ≤ 15 by omega)
    have big : (2 : ℝ) ^ 94 * 16 ≤ 2 ^ 100 := by norm_num
    have s := ih.add ((h n (by omega)).mono (show k ≤ k + n by omega)) (by omega) (by nlinarith)
    rw [show ((n + 1 : ℕ) : ℝ) * m = n * m + m by push_cast; ring]
    exact s

theorem value_sixteen : (f32OfFrac 16 1).isFinite = true ∧ value (f32OfFrac 16 1) = 16 := by
  refine ⟨by decide +kernel, ?_⟩
  rw [value_val, show F32.val (f32OfFrac 16 1) = 16 * 2 ^ 149 by decide +kernel, Int.cast_mul, Int.cast_pow, Int.cast_ofNat,
    Int.cast_ofNat]
  field_simp

/-- the mean of 16 numbers, as calculated -/
theorem mean_near {f : ℕ → F32} {g : ℕ → ℝ} {k : ℕ} {m : ℝ} (h : ∀ j, j < 16 → Near k m (f j) (g j)) (hk : k ≤ 1000)
    (hm : m ≤ 2 ^ 94) (m1 : 1 ≤ m) {t : ℝ} (ht : ∑ j ∈ Finset.range 16, g j = 16 * t) :
    ∀ q, q = ieeeDiv ((List.range 16).foldl (fun acc j => ieeeAdd acc (f j)) 0) (f32OfFrac 16 1) →
    q.isFinite = true ∧ |value q - t| ≤ m * (k + 19) / 2 ^ 23 := by
  intro q hq
  obtain ⟨hf, hv⟩ := value_sixteen
  have s := sum_near h hk hm (by linarith) 16 le_rfl
  have sl := s.le (by omega)
  have sv := s.atMost (by omega)
  rw [ht] at sl
  push_cast at sl sv
  have big : (2 : ℝ) ^ 94 * 32 ≤ 2 ^ 127 := by norm_num
  obtain ⟨g1, e1, -⟩ := div_rounds s.finite hf (by rw [hv]; norm_num) (by
    rw [hv, abs_div, abs_of_pos (show (0 : ℝ) < 16 by norm_num), div_le_iff₀ (by norm_num)]
    linarith [sv.2])
  rw [← hq] at g1 e1
  refine ⟨g1, ?_⟩
  rw [hv] at e1
  have sa := sv.2
  generalize value ((List.range 16).foldl (fun acc j => ieeeAdd acc (f j)) 0) = a at *
  have small : (1 : ℝ) / 2 ^ 150 ≤ m / 2 ^ 24 := by
    calc (1 : ℝ) / 2 ^ 150 ≤ 1 / 2 ^ 24 := by norm_num
      _ ≤ m / 2 ^ 24 := by gcongr
  generalize (1 : ℝ) / 2 ^ 150 = w at *
  have e2 : |a / 16| / 2 ^ 24 ≤ m / 2 ^ 23 := by
    rw [abs_div, abs_of_pos (show (0 : ℝ) < 16 by norm_num)]
    have : |a| / 16 ≤ 2 * m := by rw [div_le_iff₀ (by norm_num)]; linarith
    calc |a| / 16 / 2 ^ 24 ≤ 2 * m / 2 ^ 24 := by gcongr
      _ = m / 2 ^ 23 := by ring
  have e3 : |a / 16 - t| ≤ m * (k + 17) / 2 ^ 23 := by
    rw [show a / 16 - t = (a - 16 * t) / 16 by ring, abs_div, abs_of_pos (show (0 : ℝ) < 16 by norm_num),
      div_le_iff₀ (by norm_num)]
    refine sl.trans (le_of_eq ?_)
    ring
  have e4 := abs_add_le (value q - a / 16) (a / 16 - t)
  rw [sub_add_sub_cancel] at e4
  have e5 : m * (k + 19) / 2 ^ 23 = m * (k + 17) / 2 ^ 23 + m / 2 ^ 23 + (m / 2 ^ 24 + m / 2 ^ 24) := by ring
  have : 0 ≤ m / 2 ^ 24 := by positivity
  linarith

theorem fold_parts (P : ℕ → V3 F32) : ∀ (l : List ℕ) (a : V3 F32),
    (l.map P).foldl (fun acc p => (⟨ieeeAdd acc.x p.x, ieeeAdd acc.y p.y, ieeeAdd acc.z p.z⟩ : V3 F32)) a =
      ⟨l.foldl (fun acc j => ieeeAdd acc (P j).x) a.x, l.foldl (fun acc j => ieeeAdd acc (P j).y) a.y,
        l.foldl (fun acc j => ieeeAdd acc (P j).z) a.z⟩
  | [], _ => rfl
  | j :: l, a => fold_parts P l ⟨ieeeAdd a.x (P j).x, ieeeAdd a.y (P j).y, ieeeAdd a.z (P j).z⟩

theorem middle_parts (ring : RingSpec) (axis : F32) : ∃ x y z,
    x = ieeeDiv ((List.range 16).foldl (fun acc j => ieeeAdd acc (ieeeMul ring.radius (sin (ieeeMul (eighths j) fPi).neg))) 0)
      (f32OfFrac 16 1) ∧
    y = ieeeDiv ((List.range 16).foldl (fun acc _ => ieeeAdd acc ring.y) 0) (f32OfFrac 16 1) ∧
    z = ieeeDiv ((List.range 16).foldl (fun acc j => ieeeAdd acc
      (ieeeAdd axis (ieeeMul ring.radius (cos (ieeeMul (eighths j) fPi).neg)))) 0) (f32OfFrac 16 1) ∧
    @RingSpec.middle (ieee sin cos pow) ring axis = ⟨x, y, z⟩ := by
  refine ⟨_, _, _, rfl, rfl, rfl, ?_⟩
  unfold RingSpec.middle
  generalize List.range 16 = l
  have h := congrArg (fun s : V3 F32 => (⟨ieeeDiv s.x (f32OfFrac 16 1), ieeeDiv s.y (f32OfFrac 16 1),
    ieeeDiv s.z (f32OfFrac 16 1)⟩ : V3 F32))
    (fold_parts (fun j => @RingSpec.point (ieee sin cos pow) ring axis j) l ⟨0, 0, 0⟩)
  exact h

/-- the middle of a disc -/
theorem wheel_middle (T : CloseTrig sin cos) (hV : 1 ≤ V) (hV' : V ≤ 2 ^ 90) {y axis radius : F32} {b c r : ℝ}
    (hy : Near 6 (9 * V) y b) (hc : Near 12 V axis c) (hr : Near 2 V radius r) (ring : RingSpec) (ey : ring.y = y)
    (ex : ring.radius = radius) :
    letI := ieee sin cos pow
    Within (V / 2 ^ 15) (ring.middle axis) ⟨0, b, c⟩ := by
  obtain ⟨ry, rr, rt, rf⟩ := ring
  subst ey ex
  have big : (2 : ℝ) ^ 90 * 9 ≤ 2 ^ 94 := by norm_num
  have cell := fun j (hj : j < 16) => wheel_cell T hV' hc hr hj
  have half : ∀ j : ℕ, (2 * Real.pi * (((j + 8 : ℕ) : ℝ) / 16)) = 2 * Real.pi * (j / 16) + Real.pi := by
    intro j; push_cast; ring
  have ss : ∑ j ∈ Finset.range 16, -(r * Real.sin (2 * Real.pi * ((j : ℕ) / 16))) = 0 :=
    sum_turn (f := fun j : ℕ => -(r * Real.sin (2 * Real.pi * (j / 16)))) fun j => by
      show -(r * Real.sin (2 * Real.pi * (((j + 8 : ℕ) : ℝ) / 16))) = _
      rw [half, Real.sin_add_pi]; ring
  have sc : ∑ j ∈ Finset.range 16, (c + r * Real.cos (2 * Real.pi * ((j : ℕ) / 16))) = 16 * c := by
    rw [Finset.sum_add_distrib, sum_turn (f := fun j : ℕ => r * Real.cos (2 * Real.pi * (j / 16))) fun j => by
      show r * Real.cos (2 * Real.pi * (((j + 8 : ℕ) : ℝ) / 16)) = _
      rw [half, Real.cos_add_pi]; ring]
    simp
  have mx := mean_near (fun j hj => (cell j hj).1) (by omega) (by linarith) hV (t := 0) (by
    rw [MulZeroClass.mul_zero]; exact ss)
  have mz := mean_near (fun j hj => (cell j hj).2) (by omega) (by linarith) (by linarith) (t := c) sc
  have my := mean_near (f := fun _ => ry) (g := fun _ => b) (fun j hj => hy) (by omega) (by linarith) (by linarith)
    (t := b) (by simp)
  obtain ⟨qx, qy, qz, ex, ey, ez, e⟩ := middle_parts (sin := sin) (cos := cos) (pow := pow) ⟨ry, rr, rt, rf⟩ axis
  have mx := mx qx ex
  have my := my qy ey
  have mz := mz qz ez
  rw [e]
  have bound : ∀ {m k e : ℝ}, m * k ≤ 256 * V → e ≤ m * k / 2 ^ 23 → e ≤ V / 2 ^ 15 := by
    intro m k e h1 h2
    refine h2.trans ?_
    rw [div_le_div_iff₀ (by positivity) (by positivity)]
    norm_num
    linarith
  exact ⟨⟨mx.1, my.1, mz.1⟩, bound (by push_cast; linarith) mx.2, bound (by push_cast; linarith) my.2,
    bound (by push_cast; linarith) mz.2⟩

/-- the sizes of a plunger across its axis, as calculated -/
theorem across_near (hW : 1 ≤ W) (hD : 2 ≤ D) (hWD : W * D ≤ 2 ^ 90) {wd : F32} (kw : AtMost W wd) :
    Near 12 (W * D) wd (value wd) ∧ Near 12 (W * D) (ieeeMul wd 0x3fa00000) (value wd * 5 / 4) ∧
    ∀ {x : F32}, AtMost D x → Near 2 (W * D) (ieeeMul wd x) (value wd * value x) ∧
      Near 2 (W * D) (ieeeMul (ieeeMul wd x) fHalf) (value wd * value x / 2) := by
  set V := W * D with hVdef
  have hV : 1 ≤ V := by nlinarith
  have hWV : 2 * W ≤ V := by nlinarith
  have big : (2 : ℝ) ^ 90 * 9 ≤ 2 ^ 100 := by norm_num
  have half : Near 0 1 fHalf (1 / 2) := by
    have := Near.of_atMost (m := 1) (x := fHalf) ⟨by decide +kernel, by rw [value_half]; norm_num [abs_le]⟩ le_rfl
    rwa [value_half] at this
  have w0 := Near.of_atMost kw hW
  have five : Near 0 2 0x3fa00000 (5 / 4) := Near.exact ⟨by decide +kernel, by
    rw [value_val, show F32.val 0x3fa00000 = 5 * 2 ^ 147 by decide +kernel, Int.cast_mul, Int.cast_pow, Int.cast_ofNat,
      Int.cast_ofNat, show (2 : ℝ) ^ 149 = 4 * 2 ^ 147 by rw [show (4 : ℝ) = 2 ^ 2 by norm_num, ← pow_add]]
    field_simp⟩ (by norm_num [abs_le]) (by norm_num)
  refine ⟨(w0.mono (by omega)).widen (by linarith) (Or.inr hV), ?_, ?_⟩
  · have := ((w0.mul five (by omega) (by linarith)).mono (show 0 + 0 + 1 ≤ 12 by omega)).widen (l := V) (by linarith)
      (Or.inr hV)
    rwa [← mul_div_assoc] at this
  · intro x h
    have d : Near 1 V (ieeeMul wd x) (value wd * value x) :=
      w0.mul (Near.of_atMost h (by linarith)) (by omega) (by linarith)
    refine ⟨d.mono (by omega), ?_⟩
    have := d.mul half (by omega) (by linarith)
    rwa [_root_.mul_one, ← div_eq_mul_one_div] at this

/-- the normals of a ring of a mesh -/
theorem wheel_normals (T : CloseTrig sin cos) (hV : 1 ≤ V) (hV' : V ≤ 2 ^ 57) {m : RawMesh} {axis : F32} {first : ℕ}
    {ring : RingSpec} (h : @IsRing (ieee sin cos pow) m axis first ring) {c r : ℝ} (hc : Near 12 V axis c) {x : F32}
    (ex : ring.radius = x) (ef : ring.facing = none) (hr : Near 2 V x r) (h0 : V / 2 ^ 14 ≤ r) :
    WheelNormals (V / (2 ^ 14 * r)) m first := by
  intro j hj
  obtain ⟨w, h1, -, h2, -⟩ := h j hj
  refine ⟨w, h1, ?_⟩
  have e : w.normal = _ := h2
  rw [e]
  exact wheel_normal (pow := pow) T hV hV' hc hr h0 hj ring rfl ex ef

/-- **C96**: the normals of the round parts of a plunger. Where a ring of the flat rod, the rod, the rim of the collar or
the tip has the radius `r`, its normals differ by at most `W D / (2^14 r)` from the directions away from the axis: `W` is a
bound on the width of the plunger, and `D` on its diameters. -/
theorem C96_plunger_normals (T : CloseTrig sin cos) (hW : 1 ≤ W) (hD : 2 ≤ D) (hWD : W * D ≤ 2 ^ 57) (A : ItemFns)
    (p : Plunger) (kw : AtMost W p.width) (kr : AtMost D p.rod_diam) (kc : AtMost D p.ring_diam) :
    letI := ieee sin cos pow
    (∀ t ∈ parseTipShape A p.tip_shape, AtMost D t.r) →
    let points := parseTipShape A p.tip_shape
    let M := buildPlungerMeshes A p
    let rod := value p.width * value p.rod_diam / 2
    let rim := value p.width * value p.ring_diam / 2
    let outwards (r : ℝ) (m : RawMesh) (first : ℕ) : Prop :=
      W * D / 2 ^ 14 ≤ r → WheelNormals (W * D / (2 ^ 14 * r)) m first
    (∀ m, M.flat_rod = some m → outwards rod m 0 ∧ outwards rod m 16) ∧
    (∀ m, M.rod = some m → ∀ i, i < 4 → outwards rod m (32 * i) ∧ outwards rod m (32 * i + 16)) ∧
    (∀ m, M.ring = some m → outwards rim m 32 ∧ outwards rim m 48) ∧
    (∀ m, M.tip = some m → points.length ≤ 2049 → ∀ (i : Nat) a b, points[i]? = some a → points[i + 1]? = some b →
      outwards (value p.width * value a.r) m (32 * i) ∧ outwards (value p.width * value b.r) m (32 * i + 16)) := by
  intro kt points M rod rim outwards
  have hV : 1 ≤ W * D := by nlinarith
  have big : (2 : ℝ) ^ 57 ≤ 2 ^ 90 := by norm_num
  obtain ⟨axis1, axis2, rad⟩ := across_near hW hD (hWD.trans big) kw
  refine ⟨?_, ?_, ?_, ?_⟩
  · intro m hm
    obtain ⟨-, -, hs, -⟩ := @C84_flat_rod (ieee sin cos pow) A p m hm
    obtain ⟨r1, r2, -⟩ := hs 0 _ _ rfl rfl
    exact ⟨wheel_normals T hV hWD r1 axis2 rfl rfl (rad kr).2, wheel_normals T hV hWD r2 axis2 rfl rfl (rad kr).2⟩
  · intro m hm i hi
    obtain ⟨-, -, hs, -⟩ := @C84_rod (ieee sin cos pow) A p m hm
    have step : ∀ {a b : RingSpec}, @IsStrip (ieee sin cos pow) m p.width i a b → a.radius = ieeeMul (ieeeMul p.width
        p.rod_diam) fHalf → b.radius = ieeeMul (ieeeMul p.width p.rod_diam) fHalf → a.facing = none → b.facing = none →
        outwards rod m (32 * i) ∧ outwards rod m (32 * i + 16) := fun h e1 e2 f1 f2 =>
      ⟨wheel_normals T hV hWD h.1 axis1 e1 f1 (rad kr).2, wheel_normals T hV hWD h.2.1 axis1 e2 f2 (rad kr).2⟩
    rcases (show i = 0 ∨ i = 1 ∨ i = 2 ∨ i = 3 by omega) with rfl | rfl | rfl | rfl
    · exact step (hs 0 _ _ rfl rfl) rfl rfl rfl rfl
    · exact step (hs 1 _ _ rfl rfl) rfl rfl rfl rfl
    · exact step (hs 2 _ _ rfl rfl) rfl rfl rfl rfl
    · exact step (hs 3 _ _ rfl rfl) rfl rfl rfl rfl
  · intro m hm
    obtain ⟨-, -, -, ⟨r3, r4, -⟩, -⟩ := @C84_collar (ieee sin cos pow) A p m hm
    exact ⟨wheel_normals T hV hWD r3 axis1 rfl rfl (rad kc).2, wheel_normals T hV hWD r4 axis1 rfl rfl (rad kc).2⟩
  · intro m hm hl i a b ha hb
    obtain ⟨-, -, hs⟩ := @C84_tip (ieee sin cos pow) A p m hm
    obtain ⟨r1, r2, -⟩ := hs hl i _ _ (by rw [List.getElem?_map, ha]; rfl) (by rw [List.getElem?_map, hb]; rfl)
    exact ⟨wheel_normals T hV hWD r1 axis1 rfl rfl (rad (kt _ (List.mem_of_getElem? ha))).1,
      wheel_normals T hV hWD r2 axis1 rfl rfl (rad (kt _ (List.mem_of_getElem? hb))).1⟩

/-- **C96**: the middles of the discs that close the flat rod and the rod of a plunger are at most `W D / 2^15` away in
every direction from the points of the axis: `W` is a bound on the width of the plunger, and `D` on its diameters; its
lengths are at most `W D`. -/
theorem C96_plunger_discs (T : CloseTrig sin cos) (hW : 1 ≤ W) (hD : 2 ≤ D) (hWD : W * D ≤ 2 ^ 90) (A : ItemFns)
    (p : Plunger) (kw : AtMost W p.width) (kr : AtMost D p.rod_diam) (kh : AtMost (W * D) p.height)
    (ks : AtMost (W * D) p.stroke) (kg : AtMost (W * D) p.ring_gap) (kl : AtMost (W * D) p.ring_width) :
    letI := ieee sin cos pow
    (∀ t ∈ parseTipShape A p.tip_shape, AtMost (W * D) t.y) →
    let points := parseTipShape A p.tip_shape
    let M := buildPlungerMeshes A p
    let e := W * D / 2 ^ 15
    let back := -value p.stroke + (points.getLast?.map fun t => value t.y).getD 0 + value p.ring_gap + value p.ring_width
    (∀ m, M.flat_rod = some m →
      (∃ v, m.vertices[32]? = some v ∧ Within e v.pos ⟨0, value p.height, value p.width * 5 / 4⟩) ∧
      (∃ v, m.vertices[49]? = some v ∧ Within e v.pos ⟨0, -value p.stroke, value p.width * 5 / 4⟩)) ∧
    (∀ m, M.rod = some m → ∃ v, m.vertices[128]? = some v ∧ Within e v.pos ⟨0, back, value p.width⟩) := by
  intro kt points M e back
  obtain ⟨axis1, axis2, rad⟩ := across_near hW hD hWD kw
  set V := W * D with hVdef
  have hV : 1 ≤ V := by nlinarith
  have big : (2 : ℝ) ^ 90 * 9 ≤ 2 ^ 100 := by norm_num
  have up : ∀ {k : ℕ} {m : ℝ} {x : F32} {r : ℝ}, Near k m x r → k ≤ 6 → m ≤ 9 * V → Near 6 (9 * V) x r :=
    fun h hk hm => (h.mono hk).widen hm (Or.inr (by linarith))
  have h0 := Near.of_atMost kh hV
  have s0 := (Near.of_atMost ks hV).neg
  have lastN : Near 0 V ((points.getLast?.map (·.y)).getD 0) ((points.getLast?.map fun t => value t.y).getD 0) := by
    cases hl : points.getLast? with
    | none => exact Near.zero.widen (by linarith) (Or.inr hV)
    | some t => exact Near.of_atMost (kt t (List.mem_of_getLast? hl)) hV
  have f1 := s0.add lastN (by omega) (by linarith)
  have f2 := f1.add ((Near.of_atMost kg hV).mono (show 0 ≤ 1 by omega)) (by omega) (by linarith)
  have f3 := f2.add ((Near.of_atMost kl hV).mono (show 0 ≤ 2 by omega)) (by omega) (by linarith)
  refine ⟨?_, ?_⟩
  · intro m hm
    obtain ⟨-, -, -, ⟨⟨v, c1, c2, -⟩, -⟩, ⟨v', c3, c4, -⟩, -⟩ := @C84_flat_rod (ieee sin cos pow) A p m hm
    refine ⟨⟨v, c1, ?_⟩, ⟨v', c3, ?_⟩⟩
    · have q : v.pos = _ := c2
      rw [q]
      exact wheel_middle (pow := pow) T hV hWD (up h0 (by omega) (by linarith)) axis2 (rad kr).2 _ rfl rfl
    · have q : v'.pos = _ := c4
      rw [q]
      exact wheel_middle (pow := pow) T hV hWD (up s0 (by omega) (by linarith)) axis2 (rad kr).2 _ rfl rfl
  · intro m hm
    obtain ⟨-, -, -, ⟨v, c1, c2, -⟩, -⟩ := @C84_rod (ieee sin cos pow) A p m hm
    refine ⟨v, c1, ?_⟩
    have q : v.pos = _ := c2
    rw [q]
    have l1 := (h0.mono (show 0 ≤ 3 by omega)).sub f3 (by omega) (by linarith)
    have q0 : Near 0 1 (ieeeDiv (f32OfFrac 0 1) (f32OfFrac 4 1)) (((0 : ℕ) : ℝ) / 4) := fourth (by omega)
    have l2 := l1.mul q0 (by omega) (by linarith)
    have l3 := (f3.mono (show 3 ≤ 5 by omega)).add l2 (by omega) (by linarith)
    rw [Nat.cast_zero, zero_div, MulZeroClass.mul_zero, _root_.add_zero] at l3
    exact wheel_middle (pow := pow) T hV hWD (up l3 (by omega) (by linarith)) axis1 (rad kr).2 _ rfl rfl

end

/-! ### A case that meets the hypotheses -/

/-- the plunger of `C84`: the normals of the first ring of its tip are within a hundredth of the directions away from the
axis, and the middle of the disc of its rod is within a hundredth of the axis -/
example : ∃ m r, (@buildPlungerMeshes nearArith plungerFns plungerSample).tip = some m ∧
    (@buildPlungerMeshes nearArith plungerFns plungerSample).rod = some r ∧ WheelNormals (1 / 100) m 0 ∧
    ∃ v, r.vertices[128]? = some v ∧ |value v.x| ≤ 1 / 100 ∧ |value v.z - 2| ≤ 1 / 100 := by
  have small : ∀ {x : F32} (b : ℕ), digitOk b x.toNat = true → AtMost b x := fun b h => digitOk_spec h
  have ok : ∀ {x : F32}, digitOk 80 x.toNat = true → AtMost (2 * 40) x := fun h => by
    have := small 80 h
    norm_num at this ⊢
    exact this
  have ok2 : ∀ {x : F32}, digitOk 40 x.toNat = true → AtMost 40 x := fun h => by simpa using small 40 h
  have kw : AtMost 2 plungerSample.width := by simpa using small (x := plungerSample.width) 2 (by decide +kernel)
  have tips : ∀ t ∈ @parseTipShape nearArith plungerFns plungerSample.tip_shape, AtMost (2 * 40) t.y ∧ AtMost 40 t.r := by
    intro t ht
    have e := sample_tip
    rw [e] at ht
    have : digitOk 80 t.y.toNat = true ∧ digitOk 40 t.r.toNat = true := by revert t; decide +kernel
    exact ⟨ok this.1, ok2 this.2⟩
  have vw : value plungerSample.width = 2 := value_two
  refine ⟨_, _, rfl, rfl, ?_, ?_⟩
  · obtain ⟨-, -, -, ht⟩ := C96_plunger_normals (W := 2) (D := 40) (pow := fun _ y => if ieeeEq y 0 then f32One else 0)
      nearTrig (by norm_num) (by norm_num) (by norm_num) plungerFns plungerSample kw (ok2 (by decide +kernel))
      (ok2 (by decide +kernel)) (fun t ht => (tips t ht).2)
    have e := sample_tip
    have h0 := (ht _ rfl (by rw [e]; decide) 0 ⟨0, fHalf⟩ ⟨fTwo, 0x3e800000⟩ (by rw [e]; rfl) (by rw [e]; rfl)).1
      (by show _ ≤ value plungerSample.width * value fHalf; rw [vw, value_half]; norm_num)
    intro j hj
    obtain ⟨w, h1, hf, e1, e2, e3⟩ := h0 j hj
    have le : (2 * 40 / (2 ^ 14 * (value plungerSample.width * value fHalf)) : ℝ) ≤ 1 / 100 := by
      rw [vw, value_half]; norm_num
    exact ⟨w, h1, hf, e1.trans le, e2.trans le, e3.trans le⟩
  · obtain ⟨-, hr⟩ := C96_plunger_discs (W := 2) (D := 40) (pow := fun _ y => if ieeeEq y 0 then f32One else 0)
      nearTrig (by norm_num) (by norm_num) (by norm_num) plungerFns plungerSample kw (ok2 (by decide +kernel))
      (ok (by decide +kernel)) (ok (by decide +kernel)) (ok (by decide +kernel)) (ok (by decide +kernel))
      (fun t ht => (tips t ht).1)
    obtain ⟨v, h1, -, e1, -, e3⟩ := hr _ rfl
    refine ⟨v, h1, ?_, ?_⟩
    · rw [← sub_zero (value v.x)]
      exact e1.trans (by norm_num)
    · rw [← vw]
      exact e3.trans (by norm_num)

end Vpin
