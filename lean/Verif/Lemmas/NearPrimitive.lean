import Verif.Lemmas.NearMatrix
/-! The error of placing the vertices of a primitive in single precision. -/
namespace Vpin
namespace Rounding
open Geometry

variable {sin cos : F32 → F32} {pow : F32 → F32 → F32}

/-- one more rounding, of a sum -/
theorem Calc.add {f A B : ℝ} {x y : F32} {r s : ℝ} (hx : Calc (f * A) x r) (hy : Calc (f * B) y s) (hr : |r| ≤ A)
    (hs : |s| ≤ B) (h0 : 0 ≤ f) (hf : f ≤ 1 / 64) (h1 : 1 ≤ A + B) (hT : A + B ≤ 2 ^ 100) :
    Calc ((f + 6 / 10 / 2 ^ 23) * (A + B)) (ieeeAdd x y) (r + s) := by
  have b1 := hx.size hr
  have b2 := hy.size hs
  have s3 : |value x + value y| ≤ 105 / 100 * (A + B) := by
    refine (abs_add_le _ _).trans ?_
    have : f * (A + B) ≤ 1 / 64 * (A + B) := mul_le_mul_of_nonneg_right hf (by linarith)
    linarith
  have hq := add_rounds hx.1 hy.1 (s3.trans (by
    calc (105 : ℝ) / 100 * (A + B) ≤ 105 / 100 * 2 ^ 100 := by linarith
      _ ≤ 2 ^ 127 := by norm_num))
  have h2 := hq.2.1
  refine ⟨hq.1, ?_⟩
  have t1 : |value x + value y| / 2 ^ 24 ≤ 105 / 100 * (A + B) / 2 ^ 24 := by gcongr
  have t2 : (1 : ℝ) / 2 ^ 150 ≤ (A + B) / 2 ^ 100 := by
    calc (1 : ℝ) / 2 ^ 150 ≤ 1 / 2 ^ 100 := by norm_num
      _ ≤ (A + B) / 2 ^ 100 := by gcongr
  have t3 : (105 : ℝ) / 100 * (A + B) / 2 ^ 24 + (A + B) / 2 ^ 100 ≤ 6 / 10 / 2 ^ 23 * (A + B) := by
    have : (105 : ℝ) / 100 / 2 ^ 24 + 1 / 2 ^ 100 ≤ 6 / 10 / 2 ^ 23 := by norm_num
    nlinarith
  have t4 : |value x + value y - (r + s)| ≤ |value x - r| + |value y - s| := by
    rw [show value x + value y - (r + s) = (value x - r) + (value y - s) by ring]
    exact abs_add_le _ _
  have t5 := abs_add_le (value (ieeeAdd x y) - (value x + value y)) (value x + value y - (r + s))
  rw [sub_add_sub_cancel] at t5
  have e1 : (f + 6 / 10 / 2 ^ 23) * (A + B) = f * A + f * B + 6 / 10 / 2 ^ 23 * (A + B) := by ring
  linarith [hx.2, hy.2]

/-- one more rounding, of a product with a number given exactly -/
theorem Calc.mul {f A V : ℝ} {x v : F32} {r : ℝ} (hx : Calc (f * A) x r) (hr : |r| ≤ A) (hv : AtMost V v)
    (h0 : 0 ≤ f) (hf : f ≤ 1 / 64) (h1 : 1 ≤ A * V) (hT : A * V ≤ 2 ^ 100) :
    Calc ((f + 6 / 10 / 2 ^ 23) * (A * V)) (ieeeMul x v) (r * value v) := by
  have hA : 0 ≤ A := (abs_nonneg _).trans hr
  have hV : 0 ≤ V := (abs_nonneg _).trans hv.2
  have b1 : |value x| ≤ 105 / 100 * A := by
    have := hx.size hr
    have : f * A ≤ 1 / 64 * A := mul_le_mul_of_nonneg_right hf hA
    linarith
  have s3 : |value x * value v| ≤ 105 / 100 * (A * V) := by
    rw [abs_mul]
    calc |value x| * |value v| ≤ (105 / 100 * A) * V := mul_le_mul b1 hv.2 (abs_nonneg _) (by positivity)
      _ = 105 / 100 * (A * V) := by ring
  have hq := mul_rounds hx.1 hv.1 (s3.trans (by
    calc (105 : ℝ) / 100 * (A * V) ≤ 105 / 100 * 2 ^ 100 := by linarith
      _ ≤ 2 ^ 127 := by norm_num))
  have h2 := hq.2.1
  refine ⟨hq.1, ?_⟩
  have t1 : |value x * value v| / 2 ^ 24 ≤ 105 / 100 * (A * V) / 2 ^ 24 := by gcongr
  have t2 : (1 : ℝ) / 2 ^ 150 ≤ (A * V) / 2 ^ 100 := by
    calc (1 : ℝ) / 2 ^ 150 ≤ 1 / 2 ^ 100 := by norm_num
      _ ≤ (A * V) / 2 ^ 100 := by gcongr
  have t3 : (105 : ℝ) / 100 * (A * V) / 2 ^ 24 + (A * V) / 2 ^ 100 ≤ 6 / 10 / 2 ^ 23 * (A * V) := by
    have : (105 : ℝ) / 100 / 2 ^ 24 + 1 / 2 ^ 100 ≤ 6 / 10 / 2 ^ 23 := by norm_num
    nlinarith
  have t4 : |value x * value v - r * value v| ≤ f * A * V := by
    rw [← sub_mul, abs_mul]
    exact mul_le_mul hx.2 hv.2 (abs_nonneg _) (mul_nonneg h0 hA)
  have t5 := abs_add_le (value (ieeeMul x v) - value x * value v) (value x * value v - r * value v)
  rw [sub_add_sub_cancel] at t5
  have e1 : (f + 6 / 10 / 2 ^ 23) * (A * V) = f * A * V + 6 / 10 / 2 ^ 23 * (A * V) := by ring
  linarith

theorem Calc.weaken {e e' : ℝ} {x : F32} {r : ℝ} (h : Calc e x r) (he : e ≤ e') : Calc e' x r := ⟨h.1, h.2.trans he⟩

/-- the error after six turns -/
noncomputable def sixTurns (n : ℕ) : ℝ := 665 / 32 * ((9 * n + 6) / 2 ^ 23)

/-- six turns of a row, as for a primitive -/
theorem RowCalc.turns (T : CloseTrig sin cos) {l w : ℝ} {row : Row4 F32} {a : V3 ℝ} (h : RowCalc 0 l w row a) {n : ℕ}
    (hn : 1 ≤ n) (hn' : n ≤ 400) {t0 t1 t2 t6 t7 t8 : F32} (h0 : AtMost (360 * n) t0) (h1 : AtMost (360 * n) t1)
    (h2 : AtMost (360 * n) t2) (h6 : AtMost (360 * n) t6) (h7 : AtMost (360 * n) t7) (h8 : AtMost (360 * n) t8)
    (hl : 1 ≤ l) (hL : l ≤ 2 ^ 60) (hw : |w| ≤ 2 ^ 60) :
    letI := ieee sin cos pow
    RowCalc (sixTurns n) l w (mulRow (mulRow (mulRow (mulRow (mulRow (mulRow row
      (.rotateZ (Ops.radians t2))) (.rotateY (Ops.radians t1))) (.rotateX (Ops.radians t0)))
      (.rotateZ (Ops.radians t8))) (.rotateY (Ops.radians t7))) (.rotateX (Ops.radians t6)))
      (Geometry.turns Real.sin Real.cos (fun x => x * (Real.pi / 180)) (value t0) (value t1) (value t2) (value t6)
        (value t7) (value t8) a) := by
  have hnR : (n : ℝ) ≤ 400 := by exact_mod_cast hn'
  have hc : (9 * (n : ℝ) + 6) / 2 ^ 23 ≤ 1 / 2000 := by
    rw [div_le_div_iff₀ (by positivity) (by positivity)]
    norm_num
    linarith
  have hc0 : 0 ≤ (9 * (n : ℝ) + 6) / 2 ^ 23 := by positivity
  have ready : ∀ {e : ℝ} {t : F32}, AtMost (360 * n) t → 0 ≤ e → e ≤ 1 / 64 → TurnReady sin cos e l w n t :=
    fun ht h0 h1 => ⟨T, hn, hn', ht, hl, hL, h1, h0, hw⟩
  have e6 : sixTurns n = turnError n (turnError n (turnError n (turnError n (turnError n (turnError n 0))))) := by
    unfold sixTurns turnError
    ring
  have up : ∀ e : ℝ, 0 ≤ e → 0 ≤ turnError n e ∧ turnError n e ≤ 3 / 2 * e + 1 / 2000 := fun e he => by
    unfold turnError
    constructor <;> linarith
  obtain ⟨p1, q1⟩ := up 0 le_rfl
  obtain ⟨p2, q2⟩ := up _ p1
  obtain ⟨p3, q3⟩ := up _ p2
  obtain ⟨p4, q4⟩ := up _ p3
  obtain ⟨p5, q5⟩ := up _ p4
  have r1 := RowCalc.turnZ (pow := pow) h (ready h2 le_rfl (by norm_num))
  have r2 := RowCalc.turnY (pow := pow) r1 (ready h1 p1 (by linarith))
  have r3 := RowCalc.turnX (pow := pow) r2 (ready h0 p2 (by linarith))
  have r4 := RowCalc.turnZ (pow := pow) r3 (ready h8 p3 (by linarith))
  have r5 := RowCalc.turnY (pow := pow) r4 (ready h7 p4 (by linarith))
  have r6 := RowCalc.turnX (pow := pow) r5 (ready h6 p5 (by linarith))
  rw [e6]
  exact r6

/-! ### The exact place -/

/-- `a p + b q + c r + t` -/
def comb (a b c : ℝ) (p q r t : V3 ℝ) : V3 ℝ :=
  ⟨a * p.x + b * q.x + c * r.x + t.x, a * p.y + b * q.y + c * r.y + t.y, a * p.z + b * q.z + c * r.z + t.z⟩

theorem turns_comb (f g d : ℝ → ℝ) (t0 t1 t2 t6 t7 t8 a b c : ℝ) (p q r t : V3 ℝ) :
    Geometry.turns f g d t0 t1 t2 t6 t7 t8 (comb a b c p q r t) =
      comb a b c (Geometry.turns f g d t0 t1 t2 t6 t7 t8 p) (Geometry.turns f g d t0 t1 t2 t6 t7 t8 q)
        (Geometry.turns f g d t0 t1 t2 t6 t7 t8 r) (Geometry.turns f g d t0 t1 t2 t6 t7 t8 t) := by
  have hx : ∀ (g s : ℝ) (p q r t : V3 ℝ), Geometry.turnX g s (comb a b c p q r t) =
      comb a b c (Geometry.turnX g s p) (Geometry.turnX g s q) (Geometry.turnX g s r) (Geometry.turnX g s t) := by
    intros
    unfold Geometry.turnX comb
    dsimp only
    congr 1 <;> ring
  have hy : ∀ (g s : ℝ) (p q r t : V3 ℝ), Geometry.turnY g s (comb a b c p q r t) =
      comb a b c (Geometry.turnY g s p) (Geometry.turnY g s q) (Geometry.turnY g s r) (Geometry.turnY g s t) := by
    intros
    unfold Geometry.turnY comb
    dsimp only
    congr 1 <;> ring
  have hz : ∀ (g s : ℝ) (p q r t : V3 ℝ), Geometry.turnZ g s (comb a b c p q r t) =
      comb a b c (Geometry.turnZ g s p) (Geometry.turnZ g s q) (Geometry.turnZ g s r) (Geometry.turnZ g s t) := by
    intros
    unfold Geometry.turnZ comb
    dsimp only
    congr 1 <;> ring
  unfold Geometry.turns
  dsimp only
  rw [hz, hy, hx, hz, hy, hx]

/-- a point as a sum of its parts along the axes, stretched and moved -/
theorem place_comb (s p t : V3 ℝ) : move t (stretch s p) =
    comb (s.x * p.x) (s.y * p.y) (s.z * p.z) ⟨1, 0, 0⟩ ⟨0, 1, 0⟩ ⟨0, 0, 1⟩ t := by
  unfold move stretch comb
  dsimp only
  congr 1 <;> ring

/-! ### The matrix -/

/-- a row of a matrix that places points, calculated with an error of `e` times the bound of its entries -/
structure RowNear (e l w : ℝ) (row : Row4 F32) (a : V3 ℝ) : Prop where
  x : Calc (e * l) row.c0 a.x
  y : Calc (e * l) row.c1 a.y
  z : Calc (e * l) row.c2 a.z
  w : Exact row.c3 w
  bx : |a.x| ≤ l
  hy : |a.y| ≤ l
  bz : |a.z| ≤ l

theorem RowCalc.near {e l w : ℝ} {row : Row4 F32} {a : V3 ℝ} (h : RowCalc e l w row a) (hl : 0 ≤ l) : RowNear e l w row a :=
  ⟨h.x, h.y, h.z, h.w, (h.bounds hl).1, (h.bounds hl).2.1, (h.bounds hl).2.2⟩

/-- an entry of the row of an axis times the size -/
theorem scaled_mul {f S : ℝ} {x s : F32} {a : ℝ} (hx : Calc (f * 1) x a) (ha : |a| ≤ 1) (hs : AtMost S s)
    (h0 : 0 ≤ f) (hf : f ≤ 1 / 64) (h1 : 1 ≤ S) (hS : S ≤ 2 ^ 60) :
    Calc ((f + 6 / 10 / 2 ^ 23) * S) (ieeeMul x s) (value s * a) ∧ |value (ieeeMul x s)| ≤ 2 ^ 120 ∧
      |value s * a| ≤ S := by
  have k := hx.mul ha hs h0 hf (by linarith) (by linarith [show (2 : ℝ) ^ 60 ≤ 2 ^ 100 by norm_num])
  rw [one_mul, mul_comm a] at k
  have ba : |value s * a| ≤ S := by
    rw [abs_mul]
    calc |value s| * |a| ≤ S * 1 := mul_le_mul hs.2 ha (abs_nonneg _) (by linarith)
      _ = S := mul_one S
  refine ⟨k, ?_, ba⟩
  have := k.size ba
  have h2 : (f + 6 / 10 / 2 ^ 23) * S ≤ 1 * S :=
    mul_le_mul_of_nonneg_right (by linarith [show (6 : ℝ) / 10 / 2 ^ 23 ≤ 1 / 64 by norm_num]) (by linarith)
  calc |value (ieeeMul x s)| ≤ 2 * S := by linarith
    _ ≤ 2 * 2 ^ 60 := by linarith
    _ ≤ 2 ^ 120 := by norm_num

section
variable {f S : ℝ} {rt : Matrix3D F32} {a0 a1 a2 a3 : V3 ℝ} {L : ℝ} {s : F32}

/-- the four rows of the turned matrix -/
structure Turned (f L : ℝ) (rt : Matrix3D F32) (a0 a1 a2 a3 : V3 ℝ) : Prop where
  r0 : RowNear f 1 0 rt.r0 a0
  r1 : RowNear f 1 0 rt.r1 a1
  r2 : RowNear f 1 0 rt.r2 a2
  r3 : RowNear f L 1 rt.r3 a3

theorem Turned.scaled0 (h : Turned f L rt a0 a1 a2 a3) (hs : AtMost S s) (h0 : 0 ≤ f) (hf : f ≤ 1 / 64) (h1 : 1 ≤ S)
    (hS : S ≤ 2 ^ 60) :
    letI := ieee sin cos pow
    RowNear (f + 6 / 10 / 2 ^ 23) S 0 (mulRow ⟨s, 0, 0, 0⟩ rt) ⟨value s * a0.x, value s * a0.y, value s * a0.z⟩ := by
  have z : ∀ {x : F32}, x.isFinite = true → Exact (ieeeMul x 0) 0 := fun hx => nothing_mul hx exact_zero'
  have fin : ∀ {x b c d : F32} {t : ℝ}, Calc (f * 1) x t → |t| ≤ 1 → b.isFinite = true → c.isFinite = true →
      d.isFinite = true → Calc ((f + 6 / 10 / 2 ^ 23) * S)
        (ieeeAdd (ieeeAdd (ieeeAdd (ieeeMul x s) (ieeeMul b 0)) (ieeeMul c 0)) (ieeeMul d 0)) (value s * t) ∧
        |value s * t| ≤ S := by
    intro x b c d t hx ht hb hc hd
    obtain ⟨k, bb, ba⟩ := scaled_mul hx ht hs h0 hf h1 hS
    exact ⟨k.same (add_nothing (add_nothing (add_nothing ⟨k.1, rfl⟩ bb (z hb)) bb (z hc)) bb (z hd)), ba⟩
  have kx := fin h.r0.x h.r0.bx h.r1.x.1 h.r2.x.1 h.r3.x.1
  have ky := fin h.r0.y h.r0.hy h.r1.y.1 h.r2.y.1 h.r3.y.1
  have kz := fin h.r0.z h.r0.bz h.r1.z.1 h.r2.z.1 h.r3.z.1
  exact ⟨kx.1, ky.1, kz.1, add_nothing (add_nothing (add_nothing (mul_nothing h.r0.w hs.1) (by simp) (z h.r1.w.1))
    (by simp) (z h.r2.w.1)) (by simp) (z h.r3.w.1), kx.2, ky.2, kz.2⟩

theorem Turned.scaled1 (h : Turned f L rt a0 a1 a2 a3) (hs : AtMost S s) (h0 : 0 ≤ f) (hf : f ≤ 1 / 64) (h1 : 1 ≤ S)
    (hS : S ≤ 2 ^ 60) :
    letI := ieee sin cos pow
    RowNear (f + 6 / 10 / 2 ^ 23) S 0 (mulRow ⟨0, s, 0, 0⟩ rt) ⟨value s * a1.x, value s * a1.y, value s * a1.z⟩ := by
  have z : ∀ {x : F32}, x.isFinite = true → Exact (ieeeMul x 0) 0 := fun hx => nothing_mul hx exact_zero'
  have fin : ∀ {x b c d : F32} {t : ℝ}, Calc (f * 1) x t → |t| ≤ 1 → b.isFinite = true → c.isFinite = true →
      d.isFinite = true → Calc ((f + 6 / 10 / 2 ^ 23) * S)
        (ieeeAdd (ieeeAdd (ieeeAdd (ieeeMul b 0) (ieeeMul x s)) (ieeeMul c 0)) (ieeeMul d 0)) (value s * t) ∧
        |value s * t| ≤ S := by
    intro x b c d t hx ht hb hc hd
    obtain ⟨k, bb, ba⟩ := scaled_mul hx ht hs h0 hf h1 hS
    exact ⟨k.same (add_nothing (add_nothing (nothing_add (z hb) ⟨k.1, rfl⟩ bb) bb (z hc)) bb (z hd)), ba⟩
  have kx := fin h.r1.x h.r1.bx h.r0.x.1 h.r2.x.1 h.r3.x.1
  have ky := fin h.r1.y h.r1.hy h.r0.y.1 h.r2.y.1 h.r3.y.1
  have kz := fin h.r1.z h.r1.bz h.r0.z.1 h.r2.z.1 h.r3.z.1
  exact ⟨kx.1, ky.1, kz.1, add_nothing (add_nothing (add_nothing (z h.r0.w.1) (by simp) (mul_nothing h.r1.w hs.1))
    (by simp) (z h.r2.w.1)) (by simp) (z h.r3.w.1), kx.2, ky.2, kz.2⟩

theorem Turned.scaled2 (h : Turned f L rt a0 a1 a2 a3) (hs : AtMost S s) (h0 : 0 ≤ f) (hf : f ≤ 1 / 64) (h1 : 1 ≤ S)
    (hS : S ≤ 2 ^ 60) :
    letI := ieee sin cos pow
    RowNear (f + 6 / 10 / 2 ^ 23) S 0 (mulRow ⟨0, 0, s, 0⟩ rt) ⟨value s * a2.x, value s * a2.y, value s * a2.z⟩ := by
  have z : ∀ {x : F32}, x.isFinite = true → Exact (ieeeMul x 0) 0 := fun hx => nothing_mul hx exact_zero'
  have fin : ∀ {x b c d : F32} {t : ℝ}, Calc (f * 1) x t → |t| ≤ 1 → b.isFinite = true → c.isFinite = true →
      d.isFinite = true → Calc ((f + 6 / 10 / 2 ^ 23) * S)
        (ieeeAdd (ieeeAdd (ieeeAdd (ieeeMul b 0) (ieeeMul c 0)) (ieeeMul x s)) (ieeeMul d 0)) (value s * t) ∧
        |value s * t| ≤ S := by
    intro x b c d t hx ht hb hc hd
    obtain ⟨k, bb, ba⟩ := scaled_mul hx ht hs h0 hf h1 hS
    exact ⟨k.same (add_nothing (nothing_add (add_nothing (z hb) (by simp) (z hc)) ⟨k.1, rfl⟩ bb) bb (z hd)), ba⟩
  have kx := fin h.r2.x h.r2.bx h.r0.x.1 h.r1.x.1 h.r3.x.1
  have ky := fin h.r2.y h.r2.hy h.r0.y.1 h.r1.y.1 h.r3.y.1
  have kz := fin h.r2.z h.r2.bz h.r0.z.1 h.r1.z.1 h.r3.z.1
  exact ⟨kx.1, ky.1, kz.1, add_nothing (add_nothing (add_nothing (z h.r0.w.1) (by simp) (z h.r1.w.1))
    (by simp) (mul_nothing h.r2.w hs.1)) (by simp) (z h.r3.w.1), kx.2, ky.2, kz.2⟩

/-- a number within its bound is far from overflow -/
theorem Calc.far {f L : ℝ} {x : F32} {t : ℝ} (hx : Calc (f * L) x t) (ht : |t| ≤ L) (hf : f ≤ 1 / 64) (hL : L ≤ 2 ^ 100) :
    |value x| ≤ 2 ^ 120 := by
  have h0 : 0 ≤ L := (abs_nonneg _).trans ht
  have := hx.size ht
  have h2 : f * L ≤ 1 * L := mul_le_mul_of_nonneg_right (by linarith) h0
  calc |value x| ≤ 2 * L := by linarith
    _ ≤ 2 * 2 ^ 100 := by linarith
    _ ≤ 2 ^ 120 := by norm_num

theorem Turned.scaled3 (h : Turned f L rt a0 a1 a2 a3) (hf : f ≤ 1 / 64) (hL : L ≤ 2 ^ 100) :
    letI := ieee sin cos pow
    RowNear f L 1 (mulRow ⟨0, 0, 0, f32One⟩ rt) a3 := by
  have z : ∀ {x : F32}, x.isFinite = true → Exact (ieeeMul x 0) 0 := fun hx => nothing_mul hx exact_zero'
  have fin : ∀ {x b c d : F32} {t : ℝ}, Exact x t → |t| ≤ 2 ^ 120 → b.isFinite = true → c.isFinite = true →
      d.isFinite = true → Exact
        (ieeeAdd (ieeeAdd (ieeeAdd (ieeeMul b 0) (ieeeMul c 0)) (ieeeMul d 0)) (ieeeMul x f32One)) t := by
    intro x b c d t hx ht hb hc hd
    exact nothing_add (add_nothing (add_nothing (z hb) (by simp) (z hc)) (by simp) (z hd)) (mul_unit hx ht exact_one') ht
  exact ⟨h.r3.x.same (fin ⟨h.r3.x.1, rfl⟩ (h.r3.x.far h.r3.bx hf hL) h.r0.x.1 h.r1.x.1 h.r2.x.1),
    h.r3.y.same (fin ⟨h.r3.y.1, rfl⟩ (h.r3.y.far h.r3.hy hf hL) h.r0.y.1 h.r1.y.1 h.r2.y.1),
    h.r3.z.same (fin ⟨h.r3.z.1, rfl⟩ (h.r3.z.far h.r3.bz hf hL) h.r0.z.1 h.r1.z.1 h.r2.z.1),
    fin h.r3.w (by norm_num) h.r0.w.1 h.r1.w.1 h.r2.w.1, h.r3.bx, h.r3.hy, h.r3.bz⟩

variable {row : Row4 F32} {a : V3 ℝ} {x y z : F32}

/-- a row of an axis is not moved -/
theorem RowNear.moved0 (h : RowNear f S 0 row a) (hf : f ≤ 1 / 64) (hS : S ≤ 2 ^ 100) (hx : x.isFinite = true)
    (hy : y.isFinite = true) (hz : z.isFinite = true) :
    letI := ieee sin cos pow
    RowNear f S 0 (mulRow row (.translate x y z)) a := by
  have o : ∀ {x : F32}, x.isFinite = true → Exact (ieeeMul 0 x) 0 := fun hx => mul_nothing exact_zero' hx
  have bx := h.x.far h.bx hf hS
  have b_y := h.y.far h.hy hf hS
  have bz := h.z.far h.bz hf hS
  refine ⟨h.x.same ?_, h.y.same ?_, h.z.same ?_, ?_, h.bx, h.hy, h.bz⟩
  · exact add_nothing (add_nothing (add_nothing (unit_mul exact_one' ⟨h.x.1, rfl⟩ bx) bx (o h.y.1)) bx (o h.z.1)) bx
      (nothing_mul hx h.w)
  · exact add_nothing (add_nothing (nothing_add (o h.x.1) (unit_mul exact_one' ⟨h.y.1, rfl⟩ b_y) b_y) b_y (o h.z.1)) b_y
      (nothing_mul hy h.w)
  · exact add_nothing (nothing_add (add_nothing (o h.x.1) (by simp) (o h.y.1)) (unit_mul exact_one' ⟨h.z.1, rfl⟩ bz) bz) bz
      (nothing_mul hz h.w)
  · exact add_nothing (add_nothing (add_nothing (o h.x.1) (by simp) (o h.y.1)) (by simp) (o h.z.1)) (by simp)
      (nothing_mul exact_one'.1 h.w)

/-- the last row is moved -/
theorem RowNear.moved1 {P : ℝ} (h : RowNear f L 1 row a) (h0 : 0 ≤ f) (hf : f ≤ 1 / 64) (hL : 1 ≤ L) (hP : 1 ≤ P)
    (hS : L + P ≤ 2 ^ 100) (hx : AtMost P x) (hy : AtMost P y) (hz : AtMost P z) :
    letI := ieee sin cos pow
    RowNear (f + 6 / 10 / 2 ^ 23) (L + P) 1 (mulRow row (.translate x y z)) (move ⟨value x, value y, value z⟩ a) := by
  have o : ∀ {x : F32}, x.isFinite = true → Exact (ieeeMul 0 x) 0 := fun hx => mul_nothing exact_zero' hx
  have bx := h.x.far h.bx hf (by linarith)
  have b_y := h.y.far h.hy hf (by linarith)
  have bz := h.z.far h.bz hf (by linarith)
  have far : ∀ {v : F32}, AtMost P v → |value v| ≤ 2 ^ 120 := fun hv =>
    hv.2.trans (by linarith [show (2 : ℝ) ^ 100 ≤ 2 ^ 120 by norm_num])
  have pos : ∀ {v : F32}, AtMost P v → Calc (f * P) (ieeeMul v row.c3) (value v) := fun hv =>
    Calc.of_exact (mul_unit ⟨hv.1, rfl⟩ (far hv) h.w) (by positivity)
  have sum : ∀ {p t : ℝ}, |p| ≤ L → |t| ≤ P → |p + t| ≤ L + P := fun h1 h2 => (abs_add_le _ _).trans (by linarith)
  refine ⟨?_, ?_, ?_, ?_, sum h.bx hx.2, sum h.hy hy.2, sum h.bz hz.2⟩
  · exact (h.x.same (add_nothing (add_nothing (unit_mul exact_one' ⟨h.x.1, rfl⟩ bx) bx (o h.y.1)) bx (o h.z.1))).add
      (pos hx) h.bx hx.2 h0 hf (by linarith) hS
  · exact (h.y.same (add_nothing (nothing_add (o h.x.1) (unit_mul exact_one' ⟨h.y.1, rfl⟩ b_y) b_y) b_y (o h.z.1))).add
      (pos hy) h.hy hy.2 h0 hf (by linarith) hS
  · exact (h.z.same (nothing_add (add_nothing (o h.x.1) (by simp) (o h.y.1)) (unit_mul exact_one' ⟨h.z.1, rfl⟩ bz) bz)).add
      (pos hz) h.bz hz.2 h0 hf (by linarith) hS
  · exact nothing_add (add_nothing (add_nothing (o h.x.1) (by simp) (o h.y.1)) (by simp) (o h.z.1))
      (unit_mul exact_one' h.w (by norm_num)) (by norm_num)

/-- a coordinate of a placed vertex -/
theorem vertex_cell {V : ℝ} {m0 m1 m2 m3 v0 v1 v2 i : F32} {t0 t1 t2 t3 : ℝ} (h0 : Calc (f * S) m0 t0)
    (h1 : Calc (f * S) m1 t1) (h2 : Calc (f * S) m2 t2) (h3 : Calc (f * L) m3 t3) (b0 : |t0| ≤ S) (b1 : |t1| ≤ S)
    (b2 : |t2| ≤ S) (b3 : |t3| ≤ L) (k0 : AtMost V v0) (k1 : AtMost V v1) (k2 : AtMost V v2) (hi : Exact i 1)
    (hf0 : 0 ≤ f) (hf : f ≤ 1 / 100) (hS : 1 ≤ S) (hV : 1 ≤ V) (hL : 1 ≤ L) (hT : 3 * (S * V) + L ≤ 2 ^ 60) :
    Calc ((f + 24 / 10 / 2 ^ 23) * (3 * (S * V) + L))
      (ieeeMul (ieeeAdd (ieeeAdd (ieeeAdd (ieeeMul m0 v0) (ieeeMul m1 v1)) (ieeeMul m2 v2)) m3) i)
      (t0 * value v0 + t1 * value v1 + t2 * value v2 + t3) := by
  have hSV : 1 ≤ S * V := by nlinarith
  have u0 : (0 : ℝ) ≤ 6 / 10 / 2 ^ 23 := by norm_num
  have u1 : (6 : ℝ) / 10 / 2 ^ 23 ≤ 1 / 1000 := by norm_num
  have big : (2 : ℝ) ^ 60 ≤ 2 ^ 100 := by norm_num
  have prod : ∀ {m v : F32} {t : ℝ}, Calc (f * S) m t → |t| ≤ S → AtMost V v →
      Calc ((f + 6 / 10 / 2 ^ 23) * (S * V)) (ieeeMul m v) (t * value v) ∧ |t * value v| ≤ S * V := by
    intro m v t hm ht hv
    refine ⟨hm.mul ht hv hf0 (by linarith) hSV (by linarith), ?_⟩
    rw [abs_mul]
    exact mul_le_mul ht hv.2 (abs_nonneg _) (by linarith)
  obtain ⟨p0, q0⟩ := prod h0 b0 k0
  obtain ⟨p1, q1⟩ := prod h1 b1 k1
  obtain ⟨p2, q2⟩ := prod h2 b2 k2
  have s1 := p0.add p1 q0 q1 (by linarith) (by linarith) (by linarith) (by linarith)
  have r1 : |t0 * value v0 + t1 * value v1| ≤ S * V + S * V := (abs_add_le _ _).trans (by linarith)
  have s2 := s1.add (p2.weaken (e' := (f + 6 / 10 / 2 ^ 23 + 6 / 10 / 2 ^ 23) * (S * V))
    (mul_le_mul_of_nonneg_right (by linarith) (by linarith))) r1 q2 (by linarith) (by linarith) (by linarith)
    (by linarith)
  have r2 : |t0 * value v0 + t1 * value v1 + t2 * value v2| ≤ S * V + S * V + S * V :=
    (abs_add_le _ _).trans (by linarith)
  have s3 := s2.add (h3.weaken (e' := (f + 6 / 10 / 2 ^ 23 + 6 / 10 / 2 ^ 23 + 6 / 10 / 2 ^ 23) * L)
    (mul_le_mul_of_nonneg_right (by linarith) (by linarith))) r2 b3 (by linarith) (by linarith) (by linarith)
    (by linarith)
  have r3 : |t0 * value v0 + t1 * value v1 + t2 * value v2 + t3| ≤ S * V + S * V + S * V + L :=
    (abs_add_le _ _).trans (by linarith)
  have far := s3.far r3 (by linarith) (by linarith)
  have e1 : (f + 24 / 10 / 2 ^ 23) * (3 * (S * V) + L) = (f + 6 / 10 / 2 ^ 23 + 6 / 10 / 2 ^ 23 + 6 / 10 / 2 ^ 23 +
      6 / 10 / 2 ^ 23) * (S * V + S * V + S * V + L) := by ring
  rw [e1]
  exact s3.same (mul_unit ⟨s3.1, rfl⟩ far hi)

/-- a vertex placed with a matrix -/
theorem placed_near {V : ℝ} {M : Matrix3D F32} {v : V3 F32} (n0 : RowNear f S 0 M.r0 a0) (n1 : RowNear f S 0 M.r1 a1)
    (n2 : RowNear f S 0 M.r2 a2) (n3 : RowNear f L 1 M.r3 a3) (hv : InBox V v) (hf0 : 0 ≤ f) (hf : f ≤ 1 / 100)
    (hS : 1 ≤ S) (hV : 1 ≤ V) (hL : 1 ≤ L) (hT : 3 * (S * V) + L ≤ 2 ^ 60) :
    letI := ieee sin cos pow
    Within ((f + 24 / 10 / 2 ^ 23) * (3 * (S * V) + L)) (M.transformVertex v)
      (comb (value v.x) (value v.y) (value v.z) a0 a1 a2 a3) := by
  have z := fun {x y : F32} (hx : Exact x 0) (hy : y.isFinite = true) => mul_nothing hx hy
  have inv := over_one (nothing_add (add_nothing (add_nothing (z n0.w hv.1.1) (by simp) (z n1.w hv.2.1.1)) (by simp)
    (z n2.w hv.2.2.1)) n3.w (by norm_num))
  have cx := vertex_cell n0.x n1.x n2.x n3.x n0.bx n1.bx n2.bx n3.bx hv.1 hv.2.1 hv.2.2 inv hf0 hf hS hV hL hT
  have cy := vertex_cell n0.y n1.y n2.y n3.y n0.hy n1.hy n2.hy n3.hy hv.1 hv.2.1 hv.2.2 inv hf0 hf hS hV hL hT
  have cz := vertex_cell n0.z n1.z n2.z n3.z n0.bz n1.bz n2.bz n3.bz hv.1 hv.2.1 hv.2.2 inv hf0 hf hS hV hL hT
  rw [mul_comm a0.x, mul_comm a1.x, mul_comm a2.x] at cx
  rw [mul_comm a0.y, mul_comm a1.y, mul_comm a2.y] at cy
  rw [mul_comm a0.z, mul_comm a1.z, mul_comm a2.z] at cz
  exact ⟨⟨cx.1, cy.1, cz.1⟩, cx.2, cy.2, cz.2⟩

/-- **the vertices of a primitive** -/
theorem primitive_near (T : CloseTrig sin cos) {n : ℕ} (hn : 1 ≤ n) (hn' : n ≤ 400) {S V D P : ℝ} (hS : 1 ≤ S) (hV : 1 ≤ V)
    (hD : 1 ≤ D) (hP : 1 ≤ P) (hT : 3 * (S * V) + 2 * D + P ≤ 2 ^ 60) {pos size v : V3 F32}
    {t0 t1 t2 t3 t4 t5 t6 t7 t8 : F32} (hp : InBox P pos) (hs : InBox S size) (hv : InBox V v)
    (k0 : AtMost (360 * n) t0) (k1 : AtMost (360 * n) t1) (k2 : AtMost (360 * n) t2) (k6 : AtMost (360 * n) t6)
    (k7 : AtMost (360 * n) t7) (k8 : AtMost (360 * n) t8) (k3 : AtMost D t3) (k4 : AtMost D t4) (k5 : AtMost D t5) :
    letI := ieee sin cos pow
    Within ((3 * (S * V) + 2 * D + P) * ((188 * n + 129) / 2 ^ 23))
      ((primitiveWorldMatrix pos size t0 t1 t2 t3 t4 t5 t6 t7 t8).transformVertex v)
      (move (point pos) (Geometry.turns Real.sin Real.cos (fun x => x * (Real.pi / 180)) (value t0) (value t1) (value t2)
        (value t6) (value t7) (value t8) (move ⟨value t3, value t4, value t5⟩ (stretch (point size) (point v))))) := by
  letI := ieee sin cos pow
  have hSV : 1 ≤ S * V := by nlinarith
  have hSle : S ≤ S * V := by nlinarith
  have one : (f32One : F32).isFinite = true := by decide +kernel
  have axis : ∀ {x y z : F32} {a b c : ℝ}, Exact x a → Exact y b → Exact z c → a * a + b * b + c * c ≤ 1 →
      RowCalc 0 1 0 ⟨x, y, z, 0⟩ ⟨a, b, c⟩ := fun hx hy hz hl =>
    ⟨Calc.of_exact hx (by simp), Calc.of_exact hy (by simp), Calc.of_exact hz (by simp), exact_zero', by simpa using hl⟩
  have row3 : RowCalc 0 (2 * D) 1 ⟨t3, t4, t5, f32One⟩ ⟨value t3, value t4, value t5⟩ := by
    refine ⟨Calc.of_exact ⟨k3.1, rfl⟩ (by simp), Calc.of_exact ⟨k4.1, rfl⟩ (by simp), Calc.of_exact ⟨k5.1, rfl⟩ (by simp),
      exact_one', ?_⟩
    have sq : ∀ {x : F32}, AtMost D x → value x * value x ≤ D * D := fun hx => by
      rw [← abs_mul_abs_self]
      exact mul_le_mul hx.2 hx.2 (abs_nonneg _) (by linarith)
    have := sq k3
    have := sq k4
    have := sq k5
    show value t3 * value t3 + value t4 * value t4 + value t5 * value t5 ≤ 2 * D * (2 * D)
    nlinarith
  have big : (2 : ℝ) ^ 60 ≤ 2 ^ 100 := by norm_num
  have hturn : ∀ {l w : ℝ} {row : Row4 F32} {a : V3 ℝ}, RowCalc 0 l w row a → 1 ≤ l → l ≤ 2 ^ 60 → |w| ≤ 2 ^ 60 → _ :=
    fun h h1 h2 h3 => (RowCalc.turns (pow := pow) T h hn hn' k0 k1 k2 k6 k7 k8 h1 h2 h3).near (by linarith)
  have m0 := hturn (axis exact_one' exact_zero' exact_zero' (by norm_num)) le_rfl (by norm_num) (by norm_num)
  have m1 := hturn (axis exact_zero' exact_one' exact_zero' (by norm_num)) le_rfl (by norm_num) (by norm_num)
  have m2 := hturn (axis exact_zero' exact_zero' exact_one' (by norm_num)) le_rfl (by norm_num) (by norm_num)
  have m3 := hturn row3 (by linarith) (by linarith) (by norm_num)
  have hnR : (n : ℝ) ≤ 400 := by exact_mod_cast hn'
  have h60 : 0 ≤ sixTurns n := by unfold sixTurns; positivity
  have h6 : sixTurns n ≤ 1 / 110 := by
    unfold sixTurns
    rw [← mul_div_assoc, div_le_div_iff₀ (by positivity) (by positivity)]
    norm_num
    linarith
  have u1 : (6 : ℝ) / 10 / 2 ^ 23 ≤ 1 / 10000 := by norm_num
  have u0 : (0 : ℝ) ≤ 6 / 10 / 2 ^ 23 := by norm_num
  have tm : Turned (sixTurns n) (2 * D) ((((((Matrix3D.translate t3 t4 t5).mult (.rotateZ (Ops.radians t2))).mult
      (.rotateY (Ops.radians t1))).mult (.rotateX (Ops.radians t0))).mult (.rotateZ (Ops.radians t8))).mult
      (.rotateY (Ops.radians t7)) |>.mult (.rotateX (Ops.radians t6))) _ _ _ _ := ⟨m0, m1, m2, m3⟩
  have S60 : S ≤ 2 ^ 60 := by linarith
  have n0 := (tm.scaled0 (sin := sin) (cos := cos) (pow := pow) hs.1 h60 (by linarith) hS S60).moved0 (sin := sin)
    (cos := cos) (pow := pow) (by linarith) (by linarith) hp.1.1 hp.2.1.1 hp.2.2.1
  have n1 := (tm.scaled1 (sin := sin) (cos := cos) (pow := pow) hs.2.1 h60 (by linarith) hS S60).moved0 (sin := sin)
    (cos := cos) (pow := pow) (by linarith) (by linarith) hp.1.1 hp.2.1.1 hp.2.2.1
  have n2 := (tm.scaled2 (sin := sin) (cos := cos) (pow := pow) hs.2.2 h60 (by linarith) hS S60).moved0 (sin := sin)
    (cos := cos) (pow := pow) (by linarith) (by linarith) hp.1.1 hp.2.1.1 hp.2.2.1
  have n3 := (tm.scaled3 (sin := sin) (cos := cos) (pow := pow) (by linarith) (by linarith)).moved1 (sin := sin)
    (cos := cos) (pow := pow) h60 (by linarith) (by linarith) hP (by linarith) hp.1 hp.2.1 hp.2.2
  have hT' : 3 * (S * V) + (2 * D + P) ≤ 2 ^ 60 := by linarith
  have all := placed_near (sin := sin) (cos := cos) (pow := pow)
    (M := primitiveWorldMatrix pos size t0 t1 t2 t3 t4 t5 t6 t7 t8) n0 n1 n2 n3 hv (by linarith) (by linarith) hS hV
    (by linarith) hT'
  have bound : (sixTurns n + 6 / 10 / 2 ^ 23 + 24 / 10 / 2 ^ 23) * (3 * (S * V) + (2 * D + P)) ≤
      (3 * (S * V) + 2 * D + P) * ((188 * n + 129) / 2 ^ 23) := by
    rw [mul_comm, show 3 * (S * V) + (2 * D + P) = 3 * (S * V) + 2 * D + P by ring]
    refine mul_le_mul_of_nonneg_left ?_ (by linarith)
    unfold sixTurns
    rw [← mul_div_assoc, ← add_div, ← add_div]
    refine div_le_div_of_nonneg_right ?_ (by positivity)
    have : (0 : ℝ) ≤ n := by positivity
    linarith
  rw [place_comb, turns_comb]
  have same : ∀ R : V3 ℝ → V3 ℝ, ∀ t : V3 ℝ, move (point pos) (comb ((point size).x * (point v).x) ((point size).y * (point v).y)
      ((point size).z * (point v).z) (R ⟨1, 0, 0⟩) (R ⟨0, 1, 0⟩) (R ⟨0, 0, 1⟩) (R t)) =
      comb (value v.x) (value v.y) (value v.z)
        ⟨value size.x * (R ⟨1, 0, 0⟩).x, value size.x * (R ⟨1, 0, 0⟩).y, value size.x * (R ⟨1, 0, 0⟩).z⟩
        ⟨value size.y * (R ⟨0, 1, 0⟩).x, value size.y * (R ⟨0, 1, 0⟩).y, value size.y * (R ⟨0, 1, 0⟩).z⟩
        ⟨value size.z * (R ⟨0, 0, 1⟩).x, value size.z * (R ⟨0, 0, 1⟩).y, value size.z * (R ⟨0, 0, 1⟩).z⟩
        (move ⟨value pos.x, value pos.y, value pos.z⟩ (R t)) := by
    intro R t
    unfold comb move point
    dsimp only
    congr 1 <;> ring
  rw [same]
  exact ⟨all.1, all.2.1.trans bound, all.2.2.1.trans bound, all.2.2.2.trans bound⟩

end
end Rounding
end Vpin
