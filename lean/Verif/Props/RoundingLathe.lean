import Verif.Lemmas.NearPoint
import Verif.Spec.RoundingLathe
import Verif.Props.PlungerShape
import Verif.Props.RoundingFlat
/-
C96: the rounding of the round parts of plungers.
-/
namespace Vpin
open Rounding Geometry Scene

section
variable {sin cos : F32 → F32} {pow : F32 → F32 → F32} {V W D : ℝ}

/-- an eighth of `j`, as calculated -/
def eighths (j : ℕ) : F32 := ieeeMul (ieeeDiv (f32OfFrac j 1) (f32OfFrac 16 1)) fTwo

theorem eighths_value {j : ℕ} (hj : j < 16) : (eighths j).isFinite = true ∧ value (eighths j) = j / 8 := by
  have h : ∀ j, j < 16 → (eighths j).isFinite = true ∧ F32.val (eighths j) = (j : Int) * 2 ^ 146 := by decide +kernel
  obtain ⟨h1, h2⟩ := h j hj
  refine ⟨h1, ?_⟩
  rw [value_val, h2, Int.cast_mul, Int.cast_pow, Int.cast_ofNat, Int.cast_natCast,
    show (2 : ℝ) ^ 149 = 8 * 2 ^ 146 by rw [show (8 : ℝ) = 2 ^ 3 by norm_num, ← pow_add]]
  field_simp

/-- the angle of a point of a ring -/
theorem wheel_angle {j : ℕ} (hj : j < 16) :
    (ieeeMul (eighths j) fPi).isFinite = true ∧
      |value (ieeeMul (eighths j) fPi) - 2 * Real.pi * (j / 16)| ≤ (4 * (2 : ℕ) : ℝ) / 2 ^ 23 := by
  obtain ⟨hf, hv⟩ := eighths_value hj
  have hjR : (j : ℝ) ≤ 15 := by exact_mod_cast (show j ≤ 15 by omega)
  have hj0 : (0 : ℝ) ≤ j := by positivity
  have hb : |value (eighths j) * value fPi| ≤ 8 := by
    rw [hv, value_pi, abs_of_nonneg (by positivity)]
    calc (j : ℝ) / 8 * (13176795 / 2 ^ 22) ≤ 15 / 8 * (13176795 / 2 ^ 22) := by gcongr
      _ ≤ 8 := by norm_num
  have hr := mul_rounds hf (show fPi.isFinite = true by decide +kernel) (hb.trans (by norm_num))
  refine ⟨hr.1, ?_⟩
  have e1 := hr.2.1
  have small : (1 : ℝ) / 2 ^ 150 ≤ 1 / 2 ^ 24 := by
    apply one_div_le_one_div_of_le (by positivity)
    exact pow_le_pow_right₀ (by norm_num) (by norm_num)
  have e2 : |value (ieeeMul (eighths j) fPi) - value (eighths j) * value fPi| ≤ 9 / 2 ^ 24 := by
    have : |value (eighths j) * value fPi| / 2 ^ 24 ≤ 8 / 2 ^ 24 := by gcongr
    have e : (8 : ℝ) / 2 ^ 24 + 1 / 2 ^ 24 = 9 / 2 ^ 24 := by norm_num
    linarith
  have p1 := Real.pi_gt_d20
  have p2 := Real.pi_lt_d20
  have e3 : |value (eighths j) * value fPi - 2 * Real.pi * (j / 16)| ≤ 2 / 2 ^ 23 := by
    rw [hv, value_pi, show (j : ℝ) / 8 * (13176795 / 2 ^ 22) - 2 * Real.pi * (j / 16) =
      j / 8 * (13176795 / 2 ^ 22 - Real.pi) by ring, abs_mul, abs_of_nonneg (by positivity)]
    have h3 : |(13176795 : ℝ) / 2 ^ 22 - Real.pi| ≤ 1 / 2 ^ 23 := by
      rw [abs_le]
      constructor <;> norm_num at p1 p2 ⊢ <;> linarith
    calc (j : ℝ) / 8 * |13176795 / 2 ^ 22 - Real.pi| ≤ 15 / 8 * (1 / 2 ^ 23) := by gcongr
      _ ≤ 2 / 2 ^ 23 := by norm_num
  have := abs_add_le (value (ieeeMul (eighths j) fPi) - value (eighths j) * value fPi)
    (value (eighths j) * value fPi - 2 * Real.pi * (j / 16))
  rw [sub_add_sub_cancel] at this
  refine this.trans ?_
  have : (9 : ℝ) / 2 ^ 24 + 2 / 2 ^ 23 ≤ (4 * (2 : ℕ) : ℝ) / 2 ^ 23 := by norm_num
  linarith

/-- a point of a ring -/
theorem wheel_point (T : CloseTrig sin cos) (hV : 1 ≤ V) (hV' : V ≤ 2 ^ 90) {y axis radius : F32} {b c r : ℝ}
    (hy : y.isFinite = true ∧ |value y - b| ≤ V / 2 ^ 17) (hc : Near 12 V axis c) (hr : Near 2 V radius r) {j : ℕ}
    (hj : j < 16) :
    letI := ieee sin cos pow
    Within (V / 2 ^ 17) (lathePoint y axis radius (ieeeMul (eighths j) fPi)) (wheelPoint b c r j) := by
  obtain ⟨af, ae⟩ := wheel_angle hj
  have big : (2 : ℝ) ^ 90 + 2 ^ 90 ≤ 2 ^ 100 := by norm_num
  have nf : (ieeeMul (eighths j) fPi).neg.isFinite = true := by rw [neg_finite]; exact af
  have ne : |value (ieeeMul (eighths j) fPi).neg - -(2 * Real.pi * (j / 16))| ≤ (4 * (2 : ℕ) : ℝ) / 2 ^ 23 := by
    rw [value_neg, ← neg_sub', abs_neg]; exact ae
  have hs := trig_near (T.sin _ nf) Real.abs_sin_sub_sin_le (Real.abs_sin_le_one _) ne
  have hk := trig_near (T.cos _ nf) Real.abs_cos_sub_cos_le (Real.abs_cos_le_one _) ne
  rw [Real.sin_neg] at hs
  rw [Real.cos_neg] at hk
  have x1 := hr.mul hs (by omega) (by linarith)
  have z1 := hr.mul hk (by omega) (by linarith)
  rw [_root_.mul_one] at x1 z1
  have z2 := hc.add z1 (by omega) (by linarith)
  have x3 := x1.le (by omega)
  have z3 := z2.le (by omega)
  push_cast at x3 z3
  refine ⟨⟨x1.finite, hy.1, z2.finite⟩, ?_, hy.2, ?_⟩
  · have e : V * ((2 + (4 * 2 + 1) + 1 + 1) / 2 ^ 23) ≤ V / 2 ^ 17 := by
      rw [div_eq_mul_inv V]; exact mul_le_mul_of_nonneg_left (by norm_num) (by linarith)
    show |value (ieeeMul radius (sin (ieeeMul (eighths j) fPi).neg)) - -(r * _)| ≤ _
    rw [← mul_neg]
    linarith
  · have e : (V + V) * ((13 + 1) / 2 ^ 23) ≤ V / 2 ^ 17 := by
      rw [div_eq_mul_inv V, ← two_mul, mul_comm 2 V, mul_assoc]
      exact mul_le_mul_of_nonneg_left (by norm_num) (by linarith)
    exact z3.trans e

/-- a fourth of a number up to four, as calculated -/
theorem fourth {i : ℕ} (hi : i ≤ 4) : Near 0 1 (ieeeDiv (f32OfFrac i 1) (f32OfFrac 4 1)) ((i : ℝ) / 4) := by
  have h : ∀ i, i < 5 → (ieeeDiv (f32OfFrac i 1) (f32OfFrac 4 1)).isFinite = true ∧
      F32.val (ieeeDiv (f32OfFrac i 1) (f32OfFrac 4 1)) = (i : Int) * 2 ^ 147 := by decide +kernel
  obtain ⟨h1, h2⟩ := h i (by omega)
  have hR : (i : ℝ) ≤ 4 := by exact_mod_cast hi
  refine Near.exact ⟨h1, ?_⟩ (by rw [abs_of_nonneg (by positivity)]; linarith) le_rfl
  rw [value_val, h2, Int.cast_mul, Int.cast_pow, Int.cast_ofNat, Int.cast_natCast,
    show (2 : ℝ) ^ 149 = 4 * 2 ^ 147 by rw [show (4 : ℝ) = 2 ^ 2 by norm_num, ← pow_add]]
  field_simp

/-- a ring of a mesh -/
theorem wheel_ring (T : CloseTrig sin cos) (hV : 1 ≤ V) (hV' : V ≤ 2 ^ 90) {m : RawMesh} {axis : F32} {first : ℕ}
    {ring : RingSpec} (h : @IsRing (ieee sin cos pow) m axis first ring) {b c r : ℝ} (hc : Near 12 V axis c) {y : F32}
    (ey : ring.y = y) (hy : y.isFinite = true ∧ |value y - b| ≤ V / 2 ^ 17) {x : F32} (ex : ring.radius = x)
    (hr : Near 2 V x r) : WheelAt (V / 2 ^ 17) m first b c r := by
  subst ey ex
  intro j hj
  obtain ⟨w, h1, h2, -⟩ := h j hj
  refine ⟨w, h1, ?_⟩
  have e : w.pos = _ := h2
  rw [e]
  exact wheel_point (pow := pow) T hV hV' hy hc hr hj

/-- **C96**: the round parts of a plunger. The 16 points of every ring of the flat rod, the rod, the collar and the tip
are those of a circle around the axis, at most `W D / 2^17` away in every direction: `W` is a bound on the width of the
plunger, and `D` on its diameters; its lengths are at most `W D`. -/
theorem C96_plunger (T : CloseTrig sin cos) (hW : 1 ≤ W) (hD : 2 ≤ D) (hWD : W * D ≤ 2 ^ 90) (A : ItemFns) (p : Plunger)
    (kw : AtMost W p.width) (kr : AtMost D p.rod_diam) (kc : AtMost D p.ring_diam) (kh : AtMost (W * D) p.height)
    (ks : AtMost (W * D) p.stroke) (kg : AtMost (W * D) p.ring_gap) (kl : AtMost (W * D) p.ring_width) :
    letI := ieee sin cos pow
    (∀ t ∈ parseTipShape A p.tip_shape, AtMost (W * D) t.y ∧ AtMost D t.r) →
    let points := parseTipShape A p.tip_shape
    let M := buildPlungerMeshes A p
    let e := W * D / 2 ^ 17
    let w := value p.width
    let rod := w * value p.rod_diam / 2
    let rim := w * value p.ring_diam / 2
    let height := value p.height
    let stroke := value p.stroke
    let front := -stroke + (points.getLast?.map fun t => value t.y).getD 0 + value p.ring_gap
    let back := front + value p.ring_width
    (∀ m, M.flat_rod = some m →
      WheelAt e m 0 height (w * 5 / 4) rod ∧ WheelAt e m 16 (-stroke) (w * 5 / 4) rod ∧
      WheelAt e m 33 height (w * 5 / 4) rod ∧ WheelAt e m 50 (-stroke) (w * 5 / 4) rod) ∧
    (∀ m, M.rod = some m →
      (∀ i, i < 4 → WheelAt e m (32 * i) (back + (height - back) * (i / 4)) w rod ∧
        WheelAt e m (32 * i + 16) (back + (height - back) * ((i + 1) / 4)) w rod) ∧ WheelAt e m 129 back w rod) ∧
    (∀ m, M.ring = some m →
      WheelAt e m 0 front w rod ∧ WheelAt e m 16 front w rim ∧ WheelAt e m 32 front w rim ∧ WheelAt e m 48 back w rim ∧
      WheelAt e m 64 back w rim ∧ WheelAt e m 80 back w rod) ∧
    (∀ m, M.tip = some m → points.length ≤ 2049 → ∀ (i : Nat) a b, points[i]? = some a → points[i + 1]? = some b →
      WheelAt e m (32 * i) (-stroke + value a.y) w (w * value a.r) ∧
      WheelAt e m (32 * i + 16) (-stroke + value b.y) w (w * value b.r)) := by
  intro kt points M e w rod rim height stroke front back
  set V := W * D with hVdef
  have hV : 1 ≤ V := by nlinarith
  have hWV : 2 * W ≤ V := by nlinarith
  have big : (2 : ℝ) ^ 90 * 9 ≤ 2 ^ 100 := by norm_num
  have half : Near 0 1 fHalf (1 / 2) := by
    have := Near.of_atMost (m := 1) (x := fHalf) ⟨by decide +kernel, by rw [value_half]; norm_num [abs_le]⟩ le_rfl
    rwa [value_half] at this
  have w0 := Near.of_atMost kw hW
  have axis1 : Near 12 V p.width w := (w0.mono (by omega)).widen (by linarith) (Or.inr hV)
  have five : Near 0 2 0x3fa00000 (5 / 4) := Near.exact ⟨by decide +kernel, by
    rw [value_val, show F32.val 0x3fa00000 = 5 * 2 ^ 147 by decide +kernel, Int.cast_mul, Int.cast_pow, Int.cast_ofNat,
      Int.cast_ofNat, show (2 : ℝ) ^ 149 = 4 * 2 ^ 147 by rw [show (4 : ℝ) = 2 ^ 2 by norm_num, ← pow_add]]
    field_simp⟩ (by norm_num [abs_le]) (by norm_num)
  have axis2 : Near 12 V (ieeeMul p.width 0x3fa00000) (w * 5 / 4) := by
    have := ((w0.mul five (by omega) (by linarith)).mono (show 0 + 0 + 1 ≤ 12 by omega)).widen (l := V) (by linarith)
      (Or.inr hV)
    rwa [← mul_div_assoc] at this
  have diam : ∀ {x : F32}, AtMost D x → Near 1 V (ieeeMul p.width x) (w * value x) := fun h =>
    w0.mul (Near.of_atMost h (by linarith)) (by omega) (by linarith)
  have rad : ∀ {x : F32}, AtMost D x → Near 2 V (ieeeMul (ieeeMul p.width x) fHalf) (w * value x / 2) := by
    intro x h
    have := (diam h).mul half (by omega) (by linarith)
    rwa [_root_.mul_one, ← div_eq_mul_one_div] at this
  have near_le : ∀ {k : ℕ} {m : ℝ} {x : F32} {r : ℝ}, Near k m x r → k ≤ 6 → m ≤ 9 * V →
      x.isFinite = true ∧ |value x - r| ≤ V / 2 ^ 17 := by
    intro k m x r h hk hm
    refine ⟨h.finite, ?_⟩
    have h1 := ((h.mono hk).widen (l := 9 * V) hm (Or.inr (by linarith))).le (by omega)
    push_cast at h1
    have : 9 * V * ((6 + 1) / 2 ^ 23) ≤ V / 2 ^ 17 := by
      rw [div_eq_mul_inv V, mul_comm 9 V, mul_assoc]; exact mul_le_mul_of_nonneg_left (by norm_num) (by linarith)
    linarith
  have h0 := Near.of_atMost kh hV
  have s0 := (Near.of_atMost ks hV).neg
  have lastN : Near 0 V ((points.getLast?.map (·.y)).getD 0) ((points.getLast?.map fun t => value t.y).getD 0) := by
    cases hl : points.getLast? with
    | none => exact Near.zero.widen (by linarith) (Or.inr hV)
    | some t => exact Near.of_atMost (kt t (List.mem_of_getLast? hl)).1 hV
  have f1 := s0.add lastN (by omega) (by linarith)
  have f2 := f1.add ((Near.of_atMost kg hV).mono (show 0 ≤ 1 by omega)) (by omega) (by linarith)
  have f3 := f2.add ((Near.of_atMost kl hV).mono (show 0 ≤ 2 by omega)) (by omega) (by linarith)
  have frontN := near_le f2 (by omega) (by linarith)
  have backN := near_le f3 (by omega) (by linarith)
  refine ⟨?_, ?_, ?_, ?_⟩
  · intro m hm
    obtain ⟨-, -, hs, ⟨-, d1, -⟩, -, d2, -⟩ := @C84_flat_rod (ieee sin cos pow) A p m hm
    obtain ⟨r1, r2, -⟩ := hs 0 _ _ rfl rfl
    have heightN := near_le h0 (by omega) (by linarith)
    have strokeN := near_le s0 (by omega) (by linarith)
    have cap : ∀ {first : ℕ} {r : RingSpec} {b : ℝ}, (∀ j, j < 16 → ∃ w, m.vertices[first + j]? = some w ∧ ⟨w.x, w.y, w.z⟩ =
        @RingSpec.point (ieee sin cos pow) r (ieeeMul p.width 0x3fa00000) j) → ∀ {y : F32}, r.y = y →
        (y.isFinite = true ∧ |value y - b| ≤ V / 2 ^ 17) →
        r.radius = ieeeMul (ieeeMul p.width p.rod_diam) fHalf → WheelAt e m first b (w * 5 / 4) rod := by
      intro first r b h y ey hy ex j hj
      obtain ⟨w, h1, h2⟩ := h j hj
      refine ⟨w, h1, ?_⟩
      have e : w.pos = _ := h2
      subst ey
      have hr := rad kr
      rw [← ex] at hr
      rw [e]
      exact wheel_point (pow := pow) T hV hWD hy axis2 hr hj
    exact ⟨wheel_ring T hV hWD r1 axis2 rfl heightN rfl (rad kr), wheel_ring T hV hWD r2 axis2 rfl strokeN rfl (rad kr),
      cap (fun j hj => let ⟨w, h1, h2, _⟩ := d1 j hj; ⟨w, h1, h2⟩) rfl heightN rfl,
      cap (fun j hj => let ⟨w, h1, h2, _⟩ := d2 j hj; ⟨w, h1, h2⟩) rfl strokeN rfl⟩
  · intro m hm
    obtain ⟨-, -, hs, -, d1, -⟩ := @C84_rod (ieee sin cos pow) A p m hm
    have part : ∀ {q : F32} {r : ℝ}, Near 0 1 q r →
        let start := ieeeAdd (ieeeAdd (ieeeAdd p.stroke.neg ((points.getLast?.map (·.y)).getD 0)) p.ring_gap) p.ring_width
        let y := ieeeAdd start (ieeeMul (ieeeAdd p.height start.neg) q)
        y.isFinite = true ∧ |value y - (back + (height - back) * r)| ≤ V / 2 ^ 17 := by
      intro q r hq
      have l1 := (h0.mono (show 0 ≤ 3 by omega)).sub f3 (by omega) (by linarith)
      have l2 := l1.mul hq (by omega) (by linarith)
      have l3 := (f3.mono (show 3 ≤ 5 by omega)).add l2 (by omega) (by linarith)
      exact near_le l3 (by omega) (by linarith)
    have q0 : Near 0 1 (ieeeDiv (f32OfFrac 0 1) (f32OfFrac 4 1)) (((0 : ℕ) : ℝ) / 4) := fourth (by omega)
    have q1 : Near 0 1 (ieeeDiv (f32OfFrac 1 1) (f32OfFrac 4 1)) (((1 : ℕ) : ℝ) / 4) := fourth (by omega)
    have q2 : Near 0 1 (ieeeDiv (f32OfFrac 2 1) (f32OfFrac 4 1)) (((2 : ℕ) : ℝ) / 4) := fourth (by omega)
    have q3 : Near 0 1 (ieeeDiv (f32OfFrac 3 1) (f32OfFrac 4 1)) (((3 : ℕ) : ℝ) / 4) := fourth (by omega)
    have q4 : Near 0 1 (ieeeDiv (f32OfFrac 4 1) (f32OfFrac 4 1)) (((4 : ℕ) : ℝ) / 4) := fourth (by omega)
    have step : ∀ {i : ℕ} {a b : RingSpec} {x y : F32} {r s : ℝ}, @IsStrip (ieee sin cos pow) m p.width i a b →
        a.y = x → b.y = y → (x.isFinite = true ∧ |value x - r| ≤ V / 2 ^ 17) →
        (y.isFinite = true ∧ |value y - s| ≤ V / 2 ^ 17) → a.radius = ieeeMul (ieeeMul p.width p.rod_diam) fHalf →
        b.radius = ieeeMul (ieeeMul p.width p.rod_diam) fHalf →
        WheelAt e m (32 * i) r w rod ∧ WheelAt e m (32 * i + 16) s w rod := fun h ex ey hx hy e1 e2 =>
      ⟨wheel_ring T hV hWD h.1 axis1 ex hx e1 (rad kr), wheel_ring T hV hWD h.2.1 axis1 ey hy e2 (rad kr)⟩
    refine ⟨?_, ?_⟩
    · intro i hi
      rcases (show i = 0 ∨ i = 1 ∨ i = 2 ∨ i = 3 by omega) with rfl | rfl | rfl | rfl
      · have := step (hs 0 _ _ rfl rfl) rfl rfl (part q0) (part q1) rfl rfl
        push_cast at this ⊢
        convert this using 3
        norm_num
      · have := step (hs 1 _ _ rfl rfl) rfl rfl (part q1) (part q2) rfl rfl
        push_cast at this ⊢
        convert this using 3
        norm_num
      · have := step (hs 2 _ _ rfl rfl) rfl rfl (part q2) (part q3) rfl rfl
        push_cast at this ⊢
        convert this using 3
        norm_num
      · have := step (hs 3 _ _ rfl rfl) rfl rfl (part q3) (part q4) rfl rfl
        push_cast at this ⊢
        convert this using 3
        norm_num
    · intro j hj
      obtain ⟨w', h1, h2, -⟩ := d1 j hj
      refine ⟨w', h1, ?_⟩
      have e1 : w'.pos = _ := h2
      rw [e1]
      have h0 := part q0
      rw [Nat.cast_zero, zero_div, MulZeroClass.mul_zero, _root_.add_zero] at h0
      exact wheel_point (pow := pow) T hV hWD h0 axis1 (rad kr) hj
  · intro m hm
    obtain ⟨-, -, ⟨r1, r2, -⟩, ⟨r3, r4, -⟩, r5, r6, -⟩ := @C84_collar (ieee sin cos pow) A p m hm
    exact ⟨wheel_ring T hV hWD r1 axis1 rfl frontN rfl (rad kr), wheel_ring T hV hWD r2 axis1 rfl frontN rfl (rad kc),
      wheel_ring T hV hWD r3 axis1 rfl frontN rfl (rad kc), wheel_ring T hV hWD r4 axis1 rfl backN rfl (rad kc),
      wheel_ring T hV hWD r5 axis1 rfl backN rfl (rad kc), wheel_ring T hV hWD r6 axis1 rfl backN rfl (rad kr)⟩
  · intro m hm hl i a b ha hb
    obtain ⟨-, -, hs⟩ := @C84_tip (ieee sin cos pow) A p m hm
    obtain ⟨r1, r2, -⟩ := hs hl i _ _ (by rw [List.getElem?_map, ha]; rfl) (by rw [List.getElem?_map, hb]; rfl)
    have at' : ∀ {t : TipPoint}, t ∈ points → (ieeeAdd p.stroke.neg t.y).isFinite = true ∧
        |value (ieeeAdd p.stroke.neg t.y) - (-stroke + value t.y)| ≤ V / 2 ^ 17 := fun ht =>
      near_le (s0.add (Near.of_atMost (kt _ ht).1 hV) (by omega) (by linarith)) (by omega) (by linarith)
    have ma := List.mem_of_getElem? ha
    have mb := List.mem_of_getElem? hb
    exact ⟨wheel_ring T hV hWD r1 axis1 rfl (at' ma) rfl ((diam (kt _ ma).2).mono (by omega)),
      wheel_ring T hV hWD r2 axis1 rfl (at' mb) rfl ((diam (kt _ mb).2).mono (by omega))⟩

end

/-! ### A case that meets the hypotheses -/

theorem sample_tip : @parseTipShape nearArith plungerFns plungerSample.tip_shape = [⟨0, fHalf⟩, ⟨fTwo, 0x3e800000⟩] := by
  decide +kernel

/-- the plunger of `C84` has a tip, and the points of its first ring are within a thousandth of a circle of radius one -/
example : ∃ m, (@buildPlungerMeshes nearArith plungerFns plungerSample).tip = some m ∧
    WheelAt (1 / 1000) m 0 (-value plungerSample.stroke + value 0) (value fTwo) (value fTwo * value fHalf) := by
  have small : ∀ {x : F32} (b : ℕ), digitOk b x.toNat = true → AtMost b x := fun b h => digitOk_spec h
  have ok : ∀ {x : F32}, digitOk 80 x.toNat = true → AtMost (2 * 40) x := fun h => by
    have := small 80 h
    norm_num at this ⊢
    exact this
  have ok2 : ∀ {x : F32}, digitOk 40 x.toNat = true → AtMost 40 x := fun h => by simpa using small 40 h
  refine ⟨_, rfl, ?_⟩
  obtain ⟨-, -, -, ht⟩ := C96_plunger (W := 2) (D := 40) (pow := fun _ y => if ieeeEq y 0 then f32One else 0) nearTrig
    (by norm_num) (by norm_num) (by norm_num) plungerFns plungerSample
    (by simpa using small (x := plungerSample.width) 2 (by decide +kernel)) (ok2 (by decide +kernel))
    (ok2 (by decide +kernel)) (ok (by decide +kernel)) (ok (by decide +kernel)) (ok (by decide +kernel))
    (ok (by decide +kernel)) (by
      intro t ht
      have e := sample_tip
      rw [e] at ht
      have : digitOk 80 t.y.toNat = true ∧ digitOk 40 t.r.toNat = true := by revert t; decide +kernel
      exact ⟨ok this.1, ok2 this.2⟩)
  have e := sample_tip
  have h0 := (ht _ rfl (by rw [e]; decide) 0 ⟨0, fHalf⟩ ⟨fTwo, 0x3e800000⟩ (by rw [e]; rfl) (by rw [e]; rfl)).1
  intro j hj
  obtain ⟨w, h1, hf, e1, e2, e3⟩ := h0 j hj
  have le : ((2 : ℝ) * 40 / 2 ^ 17) ≤ 1 / 1000 := by norm_num
  exact ⟨w, h1, hf, e1.trans le, e2.trans le, e3.trans le⟩

end Vpin
