import Verif.Lemmas.NearPoint
import Verif.Lemmas.GltfBounds
import Verif.Spec.RoundingFlat
import Verif.Props.FlatShape
import Verif.Props.RoundingWires
/-
C96: the rounding of flashers and of the inserts of lights.
-/
namespace Vpin
open Rounding Geometry Scene

section
variable {sin cos : F32 → F32} {pow : F32 → F32 → F32} {n : ℕ} {V : ℝ}

theorem value_pi : value fPi = 13176795 / 2 ^ 22 := by
  rw [value_val, show F32.val fPi = 13176795 * 2 ^ 127 by decide +kernel]
  rw [Int.cast_mul, Int.cast_pow, Int.cast_ofNat, Int.cast_ofNat,
    show (2 : ℝ) ^ 149 = 2 ^ 22 * 2 ^ 127 by rw [← pow_add]]
  field_simp

theorem value_180 : value f180 = 180 := by
  rw [value_val, show F32.val f180 = 180 * 2 ^ 149 by decide +kernel]
  rw [Int.cast_mul, Int.cast_pow, Int.cast_ofNat, Int.cast_ofNat]
  field_simp

/-- an angle in radians, by a product and a quotient: three roundings -/
theorem pi_near {x : F32} (hn : 1 ≤ n) (h : AtMost (360 * n) x) (hbig : n ≤ 2 ^ 60) :
    (ieeeDiv (ieeeMul x fPi) f180).isFinite = true ∧
      |value (ieeeDiv (ieeeMul x fPi) f180) - value x * (Real.pi / 180)| ≤ (4 * (2 * n : ℕ) : ℝ) / 2 ^ 23 := by
  have hnR : (1 : ℝ) ≤ n := by exact_mod_cast hn
  have hnB : (n : ℝ) ≤ 2 ^ 60 := by exact_mod_cast hbig
  have hprod : |value x * value fPi| ≤ 1131 * n := by
    rw [abs_mul, value_pi, abs_of_pos (by norm_num : (0 : ℝ) < 13176795 / 2 ^ 22)]
    calc |value x| * (13176795 / 2 ^ 22) ≤ 360 * n * (13176795 / 2 ^ 22) := mul_le_mul_of_nonneg_right h.2 (by norm_num)
      _ ≤ 1131 * n := by nlinarith
  have hr := mul_rounds h.1 (show fPi.isFinite = true by decide +kernel) (hprod.trans (by
    calc (1131 : ℝ) * n ≤ 1131 * 2 ^ 60 := by gcongr
      _ ≤ 2 ^ 127 := by norm_num))
  have h6 : (1 : ℝ) / 2 ^ 150 ≤ (n : ℝ) / 2 ^ 100 := by
    calc (1 : ℝ) / 2 ^ 150 ≤ 1 / 2 ^ 100 := by norm_num
      _ ≤ (n : ℝ) / 2 ^ 100 := by gcongr
  have e1 : |value (ieeeMul x fPi) - value x * value fPi| ≤ 1131 * n / 2 ^ 24 + n / 2 ^ 100 := by
    refine hr.2.1.trans ?_
    have : |value x * value fPi| / 2 ^ 24 ≤ 1131 * n / 2 ^ 24 := by gcongr
    linarith
  have hp : |value (ieeeMul x fPi)| ≤ 1132 * n := by
    have := abs_add_le (value (ieeeMul x fPi) - value x * value fPi) (value x * value fPi)
    rw [sub_add_cancel] at this
    have h8 : (1131 : ℝ) * n / 2 ^ 24 + n / 2 ^ 100 ≤ n := by
      have : (1131 : ℝ) / 2 ^ 24 + 1 / 2 ^ 100 ≤ 1 := by norm_num
      have h9 := mul_le_mul_of_nonneg_left this (by linarith : (0 : ℝ) ≤ n)
      linarith [h9]
    linarith
  have hq : |value (ieeeMul x fPi) / value f180| ≤ 6.29 * n := by
    rw [abs_div, value_180, abs_of_pos (by norm_num : (0 : ℝ) < 180), div_le_iff₀ (by norm_num)]
    nlinarith
  have hd := div_rounds hr.1 (show f180.isFinite = true by decide +kernel) (by rw [value_180]; norm_num) (hq.trans (by
    calc (6.29 : ℝ) * n ≤ 6.29 * 2 ^ 60 := by gcongr
      _ ≤ 2 ^ 127 := by norm_num))
  refine ⟨hd.1, ?_⟩
  have e2 : |value (ieeeDiv (ieeeMul x fPi) f180) - value (ieeeMul x fPi) / 180| ≤ 6.29 * n / 2 ^ 24 + n / 2 ^ 100 := by
    have h9 := hd.2.1
    have : |value (ieeeMul x fPi) / value f180| / 2 ^ 24 ≤ 6.29 * n / 2 ^ 24 := by gcongr
    rw [value_180] at h9 this
    linarith
  have e3 : |value (ieeeMul x fPi) / 180 - value x * value fPi / 180| ≤ (1131 * n / 2 ^ 24 + n / 2 ^ 100) / 180 := by
    rw [← sub_div, abs_div, abs_of_pos (by norm_num : (0 : ℝ) < 180)]
    gcongr
  have hpi : |13176795 / 2 ^ 22 - Real.pi| ≤ 88 / 10 ^ 9 := by
    have h1 := Real.pi_gt_d20
    have h2 := Real.pi_lt_d20
    rw [abs_le]
    constructor <;> linarith
  have e4 : |value x * value fPi / 180 - value x * (Real.pi / 180)| ≤ 360 * n * (88 / 10 ^ 9) / 180 := by
    rw [value_pi, show value x * (13176795 / 2 ^ 22) / 180 - value x * (Real.pi / 180) =
      value x * (13176795 / 2 ^ 22 - Real.pi) / 180 by ring, abs_div, abs_of_pos (by norm_num : (0 : ℝ) < 180), abs_mul]
    gcongr
    exact h.2
  have t1 := abs_sub_le (value (ieeeDiv (ieeeMul x fPi) f180)) (value (ieeeMul x fPi) / 180) (value x * (Real.pi / 180))
  have t2 := abs_sub_le (value (ieeeMul x fPi) / 180) (value x * value fPi / 180) (value x * (Real.pi / 180))
  have h7 : (6.29 : ℝ) * n / 2 ^ 24 + n / 2 ^ 100 + ((1131 * n / 2 ^ 24 + n / 2 ^ 100) / 180 + 360 * n * (88 / 10 ^ 9) / 180)
      ≤ (4 * (2 * n) : ℝ) / 2 ^ 23 := by
    have : (6.29 : ℝ) / 2 ^ 24 + 1 / 2 ^ 100 + ((1131 / 2 ^ 24 + 1 / 2 ^ 100) / 180 + 360 * (88 / 10 ^ 9) / 180)
      ≤ (4 * 2 : ℝ) / 2 ^ 23 := by norm_num
    have h8 := mul_le_mul_of_nonneg_left this (by linarith : (0 : ℝ) ≤ n)
    linarith [h8]
  push_cast
  linarith

/-- the sine and the cosine of such an angle -/
theorem pi_trig (T : CloseTrig sin cos) {x : F32} (hn : 1 ≤ n) (h : AtMost (360 * n) x) (hbig : n ≤ 2 ^ 60) :
    Near (8 * n + 1) 1 (sin (ieeeDiv (ieeeMul x fPi) f180)) (Real.sin (value x * (Real.pi / 180))) ∧
      Near (8 * n + 1) 1 (cos (ieeeDiv (ieeeMul x fPi) f180)) (Real.cos (value x * (Real.pi / 180))) := by
  obtain ⟨hf, he⟩ := pi_near hn h hbig
  have e : 8 * n + 1 = 4 * (2 * n) + 1 := by ring
  rw [e]
  exact ⟨trig_near (T.sin _ hf) Real.abs_sin_sub_sin_le (Real.abs_sin_le_one _) he,
    trig_near (T.cos _ hf) Real.abs_cos_sub_cos_le (Real.abs_cos_le_one _) he⟩

/-- a matrix whose cells are near those of another -/
structure NearM (k : ℕ) (m : ℝ) (M : Mat3 F32) (x y z : V3 ℝ) : Prop where
  x : NearP k m M.r0 x
  y : NearP k m M.r1 y
  z : NearP k m M.r2 z

/-- the matrix of a flasher -/
theorem flasher_matrix {j : ℕ} {a b c : F32} {sa ca sb cb sc cc : ℝ} (h1 : Near j 1 (sin a) sa) (h2 : Near j 1 (cos a) ca)
    (h3 : Near j 1 (sin b) sb) (h4 : Near j 1 (cos b) cb) (h5 : Near j 1 (sin c) sc) (h6 : Near j 1 (cos c) cc)
    (hj : 3 * j ≤ 1900) :
    letI := ieee sin cos pow
    NearM (3 * j + 3) 2 (flasherMatrix a b c)
      ⟨cc * cb, cc * sb * sa - sc * ca, cc * sb * ca + sc * sa⟩
      ⟨sc * cb, sc * sb * sa + cc * ca, sc * sb * ca - cc * sa⟩
      ⟨-sb, cb * sa, cb * ca⟩ := by
  have one : ∀ {k : ℕ} {x : F32} {r : ℝ}, Near k 1 x r → k ≤ 3 * j + 3 → Near (3 * j + 3) 2 x r := fun h hk =>
    (h.mono hk).widen (by norm_num) (Or.inr (by norm_num))
  have two : ∀ {x y : F32} {r s : ℝ}, Near j 1 x r → Near j 1 y s → Near (2 * j + 1) 1 (ieeeMul x y) (r * s) := by
    intro x y r s hx hy
    have := hx.mul hy (by omega) (by norm_num)
    rw [_root_.mul_one] at this
    exact this.mono (by omega)
  have three : ∀ {x y z : F32} {r s t : ℝ}, Near j 1 x r → Near j 1 y s → Near j 1 z t →
      Near (3 * j + 2) 1 (ieeeMul (ieeeMul x y) z) (r * s * t) := by
    intro x y z r s t hx hy hz
    have := (two hx hy).mul hz (by omega) (by norm_num)
    rw [_root_.mul_one] at this
    exact this.mono (by omega)
  have plus : ∀ {x y : F32} {r s : ℝ}, Near (3 * j + 2) 1 x r → Near (2 * j + 1) 1 y s →
      Near (3 * j + 3) 2 (ieeeAdd x y) (r + s) := by
    intro x y r s hx hy
    have := hx.add (hy.mono (by omega)) (by omega) (by norm_num)
    rwa [show (1 : ℝ) + 1 = 2 by norm_num] at this
  have minus : ∀ {x y : F32} {r s : ℝ}, Near (3 * j + 2) 1 x r → Near (2 * j + 1) 1 y s →
      Near (3 * j + 3) 2 (ieeeAdd x y.neg) (r - s) := by
    intro x y r s hx hy
    rw [sub_eq_add_neg]
    exact plus hx hy.neg
  exact ⟨⟨one (two h6 h4) (by omega), minus (three h6 h3 h1) (two h5 h2), plus (three h6 h3 h2) (two h5 h1)⟩,
    ⟨one (two h5 h4) (by omega), plus (three h5 h3 h1) (two h6 h2), minus (three h5 h3 h2) (two h6 h1)⟩,
    ⟨one h3.neg (by omega), one (two h4 h1) (by omega), one (two h4 h2) (by omega)⟩⟩

/-- a row with a point in the plane -/
theorem plane_cell {k j : ℕ} {m l : ℝ} {a : V3 F32} {r : V3 ℝ} {x y : F32} {u v : ℝ} (ha : NearP k m a r)
    (hx : Near j l x u) (hy : Near j l y v) (hk : k + j ≤ 1990) (hm : 2 * (m * l) ≤ 2 ^ 100) :
    Near (k + j + 2) (2 * (m * l)) (ieeeAdd (ieeeAdd (ieeeMul a.x x) (ieeeMul a.y y)) (ieeeMul a.z 0))
      (r.x * u + r.y * v) := by
  have h0 : 0 ≤ m * l := mul_nonneg ha.x.nonneg hx.nonneg
  have h1 := ha.x.mul hx (by omega) (by linarith)
  have h2 := ha.y.mul hy (by omega) (by linarith)
  have h3 := h1.add h2 (by omega) (by linarith)
  have h4 := h3.add_zero (ha.z.mul_zero Near.zero) (by omega) (by linarith)
  rw [MulZeroClass.mul_zero, _root_.add_zero, ← two_mul] at h4
  exact h4

/-- a row with the vector that shows up -/
theorem up_cell {k : ℕ} {m : ℝ} {a : V3 F32} {r : V3 ℝ} (ha : NearP k m a r) (hk : k ≤ 1990) (hm : m ≤ 2 ^ 100) :
    Near k m (ieeeAdd (ieeeAdd (ieeeMul a.x 0) (ieeeMul a.y 0)) (ieeeMul a.z f32One)) r.z := by
  have h1 := (ha.x.mul_zero Near.zero).add_zero (ha.y.mul_zero Near.zero) (by omega) (by norm_num)
  have h2 := h1.zero_add (ha.z.mul_one exact_one' (by omega) hm) (by omega) hm
  have e : r.x * 0 + r.y * 0 + r.z * 1 = r.z := by ring
  rwa [e] at h2

theorem NearM.plane {k j : ℕ} {m l : ℝ} {M : Mat3 F32} {a b c : V3 ℝ} {x y : F32} {u v : ℝ} (h : NearM k m M a b c)
    (hx : Near j l x u) (hy : Near j l y v) (hk : k + j ≤ 1990) (hm : 2 * (m * l) ≤ 2 ^ 100) :
    letI := ieee sin cos pow
    NearP (k + j + 2) (2 * (m * l)) (M.multiplyVector ⟨x, y, 0⟩)
      ⟨a.x * u + a.y * v, b.x * u + b.y * v, c.x * u + c.y * v⟩ :=
  ⟨plane_cell h.x hx hy hk hm, plane_cell h.y hx hy hk hm, plane_cell h.z hx hy hk hm⟩

theorem NearM.up {k : ℕ} {m : ℝ} {M : Mat3 F32} {a b c : V3 ℝ} (h : NearM k m M a b c) (hk : k ≤ 1990)
    (hm : m ≤ 2 ^ 100) :
    letI := ieee sin cos pow
    NearP k m (M.multiplyVector ⟨0, 0, f32One⟩) ⟨a.z, b.z, c.z⟩ :=
  ⟨up_cell (r := a) h.x hk hm, up_cell (r := b) h.y hk hm, up_cell (r := c) h.z hk hm⟩

theorem value_half : value fHalf = 1 / 2 := by
  rw [value_val, show F32.val fHalf = 2 ^ 148 by decide +kernel]
  rw [Int.cast_pow, Int.cast_ofNat, show (2 : ℝ) ^ 149 = 2 * 2 ^ 148 by rw [← pow_succ']]
  field_simp

/-- the middle, calculated -/
theorem middle_near {a b : F32} (hV : 1 ≤ V) (hV' : V ≤ 2 ^ 90) (ha : AtMost V a) (hb : AtMost V b) :
    Near 2 (2 * V) (ieeeMul (ieeeAdd a b) fHalf) ((value a + value b) / 2) := by
  have big : (2 : ℝ) * 2 ^ 90 ≤ 2 ^ 100 := by norm_num
  have h1 := (Near.of_atMost ha hV).add (Near.of_atMost hb hV) (by omega) (by linarith)
  have h2 : Near 0 1 fHalf (1 / 2) := by
    have := Near.of_atMost (m := 1) (x := fHalf) ⟨by decide +kernel, by rw [value_half]; norm_num [abs_le]⟩ le_rfl
    rwa [value_half] at this
  have h3 := h1.mul h2 (by omega) (by linarith)
  rw [_root_.mul_one, show V + V = 2 * V by ring, ← div_eq_mul_one_div] at h3
  exact h3

theorem moderate_of {x : F32} (hV' : V ≤ 2 ^ 90) (h : AtMost V x) : Moderate x := by
  have hx := (abs_le.1 (h.2.trans hV'))
  have big : (2 : ℝ) ^ 90 < (2 ^ 24 - 1) * 2 ^ 104 := by norm_num
  have e1 : F32.val 0x7f7fffff = (2 ^ 24 - 1) * 2 ^ 104 * 2 ^ 149 := by decide +kernel
  have e2 : F32.val 0xff7fffff = -((2 ^ 24 - 1) * 2 ^ 104 * 2 ^ 149) := by decide +kernel
  have v1 : value 0x7f7fffff = (2 ^ 24 - 1) * 2 ^ 104 := by
    rw [value_val, e1]
    rw [Int.cast_mul, Int.cast_mul, Int.cast_pow, Int.cast_pow, Int.cast_sub, Int.cast_pow, Int.cast_one, Int.cast_ofNat]
    field_simp
  have v2 : value 0xff7fffff = -((2 ^ 24 - 1) * 2 ^ 104) := by
    rw [value_val, e2]
    rw [Int.cast_neg, Int.cast_mul, Int.cast_mul, Int.cast_pow, Int.cast_pow, Int.cast_sub, Int.cast_pow, Int.cast_one,
      Int.cast_ofNat]
    field_simp
  have lt : ∀ {a b : F32}, a.isFinite = true → b.isFinite = true → value a < value b → ieeeLt a b = true := by
    intro a b ha hb hl
    rw [ieeeLt_finite ha hb, decide_eq_true_eq]
    rw [value_val, value_val, div_lt_div_iff_of_pos_right (by positivity)] at hl
    exact_mod_cast hl
  exact ⟨lt (by decide +kernel) h.1 (by rw [v2]; linarith), lt h.1 (by decide +kernel) (by rw [v1]; linarith)⟩

theorem value_le_of {a b : F32} (ha : a.isFinite = true) (hb : b.isFinite = true) (h : ieeeLt b a = false) :
    value a ≤ value b := by
  rw [ieeeLt_finite hb ha, decide_eq_false_iff_not, not_lt] at h
  rw [value_val, value_val]
  have : (a.val : ℝ) ≤ (b.val : ℝ) := by exact_mod_cast h
  gcongr

/-- the middle of the least and the greatest -/
theorem middle_of {l : List RenderVertex2D} {f : RenderVertex2D → F32} {a b : F32} (hV : 1 ≤ V) (hV' : V ≤ 2 ^ 90)
    (h : ∀ v ∈ l, AtMost V (f v)) (ha : IsLeastOf a (l.map f)) (hb : IsGreatestOf b (l.map f)) :
    MiddleOf ((value a + value b) / 2) {r | ∃ v ∈ l, r = value (f v)} ∧
      Near 2 (2 * V) (ieeeMul (ieeeAdd a b) fHalf) ((value a + value b) / 2) := by
  have all : ∀ x ∈ l.map f, AtMost V x := by
    intro x hx; obtain ⟨v, hv, rfl⟩ := List.mem_map.1 hx; exact h v hv
  have mem : ∀ x ∈ l.map f, value x ∈ {r | ∃ v ∈ l, r = value (f v)} := by
    intro x hx; obtain ⟨v, hv, rfl⟩ := List.mem_map.1 hx; exact ⟨v, hv, rfl⟩
  refine ⟨⟨_, _, ⟨mem a ha.1, ?_⟩, ⟨mem b hb.1, ?_⟩, rfl⟩, middle_near hV hV' (all a ha.1) (all b hb.1)⟩
  · rintro _ ⟨v, hv, rfl⟩
    exact value_le_of (all a ha.1).1 (h v hv).1 (ha.2 _ (List.mem_map_of_mem hv))
  · rintro _ ⟨v, hv, rfl⟩
    exact value_le_of (h v hv).1 (all b hb.1).1 (hb.2 _ (List.mem_map_of_mem hv))

theorem value_of_zero {x : F32} (h : ieeeEq x 0 = true) : value x = 0 := by
  unfold ieeeEq at h
  simp only [Bool.and_eq_true, Bool.or_eq_true, beq_iff_eq, decide_eq_true_eq] at h
  rcases h.2 with h | h
  · rw [h, value_zero]
  · rw [value_val, h.2, show F32.val 0 = 0 by decide +kernel]; simp

/-- **C96**: the vertices of a flasher, whose outline is at most `V` from the origin and whose three angles are at most
`n` turns: it stands at the middle of the box around its outline, and every vertex is at most 9 (2 n + 1) / 2^19 of `V`
away from the point of the outline, seen from there and turned. The normals are those of a plane turned in the same way. -/
theorem C96_flasher (T : CloseTrig sin cos) (hn : 1 ≤ n) (hn' : n ≤ 75) (hV : 1 ≤ V) (hV' : V ≤ 2 ^ 90) (fuel : Nat)
    (f : Flasher) (d : TableDims) (m : RawMesh) (pos : Vec3) (kx : AtMost (360 * n) f.rot_x)
    (ky : AtMost (360 * n) f.rot_y) (kz : AtMost (360 * n) f.rot_z) :
    letI := ieee sin cos pow
    buildFlasherMesh fuel f d = .ok (some (m, pos)) →
    (∀ vs, flatOutline fuel f.drag_points = .ok vs → ∀ v ∈ vs, AtMost V v.x ∧ AtMost V v.y) →
    ∃ vs a b, flatOutline fuel f.drag_points = .ok vs ∧ MiddleOf a (acrossOf vs) ∧ MiddleOf b (alongOf vs) ∧
      |value pos.x - a| ≤ V / 2 ^ 20 ∧ |value pos.y - b| ≤ V / 2 ^ 20 ∧ pos.z = f.height ∧
      m.vertices.length = vs.length ∧
      ∀ (i : Nat) v w, vs[i]? = some v → m.vertices[i]? = some w →
        let turn := flasherTurn (value f.rot_x) (value f.rot_y) (value f.rot_z)
        Within (V * (9 * (2 * n + 1) / 2 ^ 19)) w.pos (turn ⟨value v.x - a, value v.y - b, 0⟩) ∧
        Within ((24 * n + 7) / 2 ^ 22) w.normal (turn ⟨0, 0, 1⟩) := by
  intro h hv
  obtain ⟨vs, ts, ho, -, h3, -, hl, hp, hw⟩ := @C85_flasher (ieee sin cos pow) fuel f d m pos h
  have hv := hv vs ho
  have bounds := (C85_bounds sin cos pow vs (by rintro rfl; simp at h3)
    (fun v hm => ⟨moderate_of hV' (hv v hm).1, moderate_of hV' (hv v hm).2⟩)).1
  obtain ⟨b1, b2, b3, b4⟩ := bounds
  obtain ⟨mx, nx⟩ := middle_of hV hV' (fun v hm => (hv v hm).1) b1 b3
  obtain ⟨my, ny⟩ := middle_of hV hV' (fun v hm => (hv v hm).2) b2 b4
  have far : ∀ {x : F32} {r : ℝ}, Near 2 (2 * V) x r → |value x - r| ≤ V / 2 ^ 20 := by
    intro x r h
    refine (h.le (by omega)).trans ?_
    have : V * (6 / 2 ^ 23) ≤ V * (1 / 2 ^ 20) := mul_le_mul_of_nonneg_left (by norm_num) (by linarith)
    push_cast
    linarith
  have hnR : (1 : ℝ) ≤ n := by exact_mod_cast hn
  refine ⟨vs, _, _, ho, mx, my, ?_, ?_, by rw [hp], hl, ?_⟩
  · rw [hp]; exact far nx
  · rw [hp]; exact far ny
  intro i v w hi hj
  have hm := List.mem_of_getElem? hi
  obtain ⟨w1, w2, -, -⟩ := hw i v w hi hj
  have big : (2 : ℝ) * (2 * (3 * 2 ^ 90)) ≤ 2 ^ 100 := by norm_num
  have px := ((Near.of_atMost (hv v hm).1 hV).mono (show 0 ≤ 2 by omega)).sub nx (by omega) (by linarith)
  have py := ((Near.of_atMost (hv v hm).2 hV).mono (show 0 ≤ 2 by omega)).sub ny (by omega) (by linarith)
  rw [show V + 2 * V = 3 * V by ring] at px py
  intro turn
  by_cases hs : (@Arith.eq (ieee sin cos pow) f.rot_x 0 && @Arith.eq (ieee sin cos pow) f.rot_y 0 &&
      @Arith.eq (ieee sin cos pow) f.rot_z 0) = true
  · obtain ⟨k1, k2⟩ := w1 hs
    simp only [Bool.and_eq_true] at hs
    have z1 := value_of_zero hs.1.1
    have z2 := value_of_zero hs.1.2
    have z3 := value_of_zero hs.2
    have ht : ∀ p, turn p = p := by
      intro p
      show flasherTurn _ _ _ p = p
      rw [z1, z2, z3]
      unfold flasherTurn turnedBy rolledBy tiltedBy turnX turnY turnZ
      simp
    rw [ht, ht]
    have e1 : w.pos = _ := k1
    have e2 : w.normal = _ := k2
    rw [e1, e2]
    refine ⟨?_, ?_⟩
    · have : NearP 3 (3 * V) ⟨_, _, 0⟩ ⟨_, _, 0⟩ := ⟨px, py, (Near.zero.mono (by omega)).widen (by linarith)
        (Or.inr (by linarith))⟩
      refine this.within (by omega) ?_
      have : V * (12 / 2 ^ 23) ≤ V * (9 * (2 * n + 1) / 2 ^ 19) :=
        mul_le_mul_of_nonneg_left (by rw [div_le_div_iff₀ (by positivity) (by positivity)]; nlinarith) (by linarith)
      push_cast
      linarith
    · have : NearP 0 1 ⟨0, 0, f32One⟩ ⟨0, 0, 1⟩ := ⟨Near.zero.widen (by norm_num) (Or.inr le_rfl),
        Near.zero.widen (by norm_num) (Or.inr le_rfl), Near.one⟩
      refine this.within (by omega) ?_
      push_cast
      rw [_root_.one_mul, div_le_div_iff₀ (by positivity) (by positivity)]
      nlinarith
  · obtain ⟨k1, k2⟩ := w2 hs
    obtain ⟨s1, c1⟩ := pi_trig T hn kx (by omega)
    obtain ⟨s2, c2⟩ := pi_trig T hn ky (by omega)
    obtain ⟨s3, c3⟩ := pi_trig T hn kz (by omega)
    have hM := flasher_matrix (pow := pow) s1 c1 s2 c2 s3 c3 (by omega)
    have e1 : w.pos = _ := k1
    have e2 : w.normal = _ := k2
    rw [e1, e2]
    refine ⟨?_, ?_⟩
    · have P := hM.plane (sin := sin) (cos := cos) (pow := pow) px py (by omega) (by linarith)
      have := P.within (e := V * (9 * (2 * n + 1) / 2 ^ 19)) (by omega) (by
        push_cast
        refine le_of_eq ?_
        field_simp
        ring)
      convert this using 1
      · rfl
      · show flasherTurn _ _ _ _ = _
        simp only [flasherTurn, turnedBy, rolledBy, tiltedBy, turnX, turnY, turnZ, V3.mk.injEq]
        refine ⟨?_, ?_, ?_⟩ <;> ring
    · have P := hM.up (sin := sin) (cos := cos) (pow := pow) (by omega) (by norm_num)
      have := P.within (e := (24 * n + 7) / 2 ^ 22) (by omega) (by
        push_cast
        refine le_of_eq ?_
        field_simp
        ring)
      convert this using 1
      · rfl
      · show flasherTurn _ _ _ _ = _
        simp only [flasherTurn, turnedBy, rolledBy, tiltedBy, turnX, turnY, turnZ, V3.mk.injEq]
        refine ⟨?_, ?_, ?_⟩ <;> ring

/-- **C96**: the vertices of the insert of a light: every vertex is at most 12 / 2^23 of `V` away from the point of the
outline, seen from the middle of the box around the outline; it faces up. -/
theorem C96_insert (hV : 1 ≤ V) (hV' : V ≤ 2 ^ 90) (fuel : Nat) (l : Light) (d : TableDims) (m : RawMesh) (pos : Vec3) :
    letI := ieee sin cos pow
    buildLightInsertMesh fuel l d = .ok (some (m, pos)) →
    (∀ vs, flatOutline fuel l.drag_points = .ok vs → ∀ v ∈ vs, AtMost V v.x ∧ AtMost V v.y) →
    ∃ vs a b, flatOutline fuel l.drag_points = .ok vs ∧ MiddleOf a (acrossOf vs) ∧ MiddleOf b (alongOf vs) ∧
      |value pos.x - a| ≤ V / 2 ^ 20 ∧ |value pos.y - b| ≤ V / 2 ^ 20 ∧ value pos.z = 0 ∧
      m.vertices.length = vs.length ∧
      ∀ (i : Nat) v w, vs[i]? = some v → m.vertices[i]? = some w →
        Within (V * (12 / 2 ^ 23)) w.pos ⟨value v.x - a, value v.y - b, 0⟩ ∧ point w.normal = ⟨0, 0, 1⟩ := by
  intro h hv
  obtain ⟨vs, ts, ho, -, h3, -, hl, hp, hw⟩ := @C85_insert (ieee sin cos pow) fuel l d m pos h
  have hv := hv vs ho
  have bounds := (C85_bounds sin cos pow vs (by rintro rfl; simp at h3)
    (fun v hm => ⟨moderate_of hV' (hv v hm).1, moderate_of hV' (hv v hm).2⟩)).2
  obtain ⟨b1, b2, b3, b4⟩ := bounds
  obtain ⟨mx, nx⟩ := middle_of hV hV' (fun v hm => (hv v hm).1) b1 b3
  obtain ⟨my, ny⟩ := middle_of hV hV' (fun v hm => (hv v hm).2) b2 b4
  have far : ∀ {x : F32} {r : ℝ}, Near 2 (2 * V) x r → |value x - r| ≤ V / 2 ^ 20 := by
    intro x r h
    refine (h.le (by omega)).trans ?_
    have : V * (6 / 2 ^ 23) ≤ V * (1 / 2 ^ 20) := mul_le_mul_of_nonneg_left (by norm_num) (by linarith)
    push_cast
    linarith
  refine ⟨vs, _, _, ho, mx, my, ?_, ?_, by rw [hp]; exact value_zero, hl, ?_⟩
  · rw [hp]; exact far nx
  · rw [hp]; exact far ny
  intro i v w hi hj
  have hm := List.mem_of_getElem? hi
  obtain ⟨k1, k2, -, -⟩ := hw i v w hi hj
  have big : (2 : ℝ) * (2 * (3 * 2 ^ 90)) ≤ 2 ^ 100 := by norm_num
  have px := ((Near.of_atMost (hv v hm).1 hV).mono (show 0 ≤ 2 by omega)).sub nx (by omega) (by linarith)
  have py := ((Near.of_atMost (hv v hm).2 hV).mono (show 0 ≤ 2 by omega)).sub ny (by omega) (by linarith)
  rw [show V + 2 * V = 3 * V by ring] at px py
  have e1 : w.pos = _ := k1
  have e2 : w.normal = _ := k2
  rw [e1, e2]
  refine ⟨?_, ?_⟩
  · have : NearP 3 (3 * V) ⟨_, _, 0⟩ ⟨_, _, 0⟩ := ⟨px, py, (Near.zero.mono (by omega)).widen (by linarith)
      (Or.inr (by linarith))⟩
    refine this.within (by omega) (le_of_eq ?_)
    push_cast
    ring
  · unfold point
    simp only [V3.mk.injEq]
    exact ⟨value_zero, value_zero, exact_one'.2⟩

end

/-! ### A case that meets the hypotheses -/

/-- a sine that is near the exact one -/
noncomputable def nearSin (x : F32) : F32 := Classical.choose (exists_close _ (Real.abs_sin_le_one (value x)))

/-- a cosine that is near the exact one -/
noncomputable def nearCos (x : F32) : F32 := Classical.choose (exists_close _ (Real.abs_cos_le_one (value x)))

theorem nearTrig : CloseTrig nearSin nearCos :=
  ⟨fun x _ => Classical.choose_spec (exists_close _ (Real.abs_sin_le_one (value x))),
    fun x _ => Classical.choose_spec (exists_close _ (Real.abs_cos_le_one (value x)))⟩

/-- arithmetic with them -/
@[reducible] noncomputable def nearArith : Arith := ieee nearSin nearCos (fun _ y => if ieeeEq y 0 then f32One else 0)

/-- a rectangle turned by 45, -90 and 360 degrees -/
def turnedFlasher : Flasher :=
  { Flasher.default with
    drag_points := flatPoints, height := fTen, rot_x := 0x42340000, rot_y := 0xc2b40000, rot_z := 0x43b40000 }

theorem flat_outline : (@flatOutline nearArith 10 flatPoints).toOption.map (fun vs => vs.map fun v => (v.x, v.y)) =
    some [(0, 0), (fFour, 0), (fFour, fTwo), (0, fTwo)] := by decide +kernel

theorem flat_small : ∀ vs, @flatOutline nearArith 10 flatPoints = .ok vs → ∀ v ∈ vs, AtMost 4 v.x ∧ AtMost 4 v.y := by
  intro vs h v hv
  have e := flat_outline
  rw [h] at e
  have e : vs.map (fun v => (v.x, v.y)) = _ := Option.some.inj e
  have hm := List.mem_map_of_mem (f := fun v : RenderVertex2D => (v.x, v.y)) hv
  rw [e] at hm
  have key : ∀ p ∈ [(0, 0), (fFour, 0), (fFour, fTwo), ((0 : F32), fTwo)], AtMost 4 p.1 ∧ AtMost 4 p.2 := by
    intro p hp
    have : digitOk 4 p.1.toNat = true ∧ digitOk 4 p.2.toNat = true := by
      revert p; decide +kernel
    exact ⟨by simpa using digitOk_spec this.1, by simpa using digitOk_spec this.2⟩
  exact key _ hm

/-- it has a mesh of four vertices, each within a thousandth of the exact place -/
example : ∃ m pos vs a b, @buildFlasherMesh nearArith 10 turnedFlasher ⟨0, 0, fTen, fTen⟩ = .ok (some (m, pos)) ∧
    m.vertices.length = 4 ∧ @flatOutline nearArith 10 flatPoints = .ok vs ∧
    ∀ (i : Nat) v w, vs[i]? = some v → m.vertices[i]? = some w →
      Within (1 / 1000) w.pos (flasherTurn (value turnedFlasher.rot_x) (value turnedFlasher.rot_y)
        (value turnedFlasher.rot_z) ⟨value v.x - a, value v.y - b, 0⟩) := by
  have hl : (@buildFlasherMesh nearArith 10 turnedFlasher ⟨0, 0, fTen, fTen⟩).toOption.map (fun r => r.map fun m =>
      m.1.vertices.length) = some (some 4) := by decide +kernel
  cases hb : @buildFlasherMesh nearArith 10 turnedFlasher ⟨0, 0, fTen, fTen⟩ with
  | error e => rw [hb] at hl; cases hl
  | ok r =>
    cases r with
    | none => rw [hb] at hl; cases hl
    | some r =>
      obtain ⟨m, pos⟩ := r
      rw [hb] at hl
      have hl : m.vertices.length = 4 := Option.some.inj (Option.some.inj hl)
      obtain ⟨vs, a, b, ho, -, -, -, -, -, -, hw⟩ := C96_flasher (n := 1) (V := 4) nearTrig le_rfl (by norm_num)
        (by norm_num) (by norm_num) 10 turnedFlasher ⟨0, 0, fTen, fTen⟩ m pos
        (by simpa using digitOk_spec (x := turnedFlasher.rot_x) (b := 360) (by decide +kernel))
        (by simpa using digitOk_spec (x := turnedFlasher.rot_y) (b := 360) (by decide +kernel))
        (by simpa using digitOk_spec (x := turnedFlasher.rot_z) (b := 360) (by decide +kernel)) hb flat_small
      refine ⟨m, pos, vs, a, b, rfl, hl, ho, fun i v w hi hj => ?_⟩
      obtain ⟨hf, e1, e2, e3⟩ := (hw i v w hi hj).1
      have le : ((4 : ℝ) * (9 * (2 * (1 : ℕ) + 1) / 2 ^ 19)) ≤ 1 / 1000 := by norm_num
      exact ⟨hf, e1.trans le, e2.trans le, e3.trans le⟩

end Vpin
