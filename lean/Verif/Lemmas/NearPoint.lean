import Verif.Lemmas.Near
import Verif.Spec.Placement
import Verif.Model.TableMesh

/-! The error of turning, stretching and moving a point in single precision. -/
namespace Vpin
namespace Rounding
open Geometry

/-- every coordinate is calculated with the error of `k` roundings -/
structure NearP (k : ℕ) (m : ℝ) (p : V3 F32) (q : V3 ℝ) : Prop where
  x : Near k m p.x q.x
  y : Near k m p.y q.y
  z : Near k m p.z q.z

variable {k j : ℕ} {m l : ℝ} {p : V3 F32} {q : V3 ℝ}

theorem NearP.of_box (h : InBox m p) (hm : 1 ≤ m) : NearP 0 m p (point p) :=
  ⟨Near.of_atMost h.1 hm, Near.of_atMost h.2.1 hm, Near.of_atMost h.2.2 hm⟩

theorem NearP.within (h : NearP k m p q) (hk : k ≤ 2000) {e : ℝ} (he : m * (((k : ℝ) + 1) / 2 ^ 23) ≤ e) : Within e p q :=
  ⟨⟨h.x.finite, h.y.finite, h.z.finite⟩, (h.x.le hk).trans he, (h.y.le hk).trans he, (h.z.le hk).trans he⟩

theorem NearP.mono (h : NearP k m p q) (hk : k ≤ j) : NearP j m p q := ⟨h.x.mono hk, h.y.mono hk, h.z.mono hk⟩

theorem NearP.widen (h : NearP k m p q) (hml : m ≤ l) (hl : l = 0 ∨ 1 ≤ l) : NearP k l p q :=
  ⟨h.x.widen hml hl, h.y.widen hml hl, h.z.widen hml hl⟩

section
variable {sin cos : F32 → F32} {pow : F32 → F32 → F32}

theorem NearP.times (h : NearP k m p q) {a b c : F32} {s : V3 ℝ} (ha : Near j l a s.x) (hb : Near j l b s.y)
    (hc : Near j l c s.z) (hk : k + j ≤ 2000) (hm : m * l ≤ 2 ^ 100) :
    letI := ieee sin cos pow
    NearP (k + j + 1) (m * l) (p.times a b c) (stretch s q) := by
  refine ⟨?_, ?_, ?_⟩
  · have := h.x.mul ha hk hm
    rwa [mul_comm q.x] at this
  · have := h.y.mul hb hk hm
    rwa [mul_comm q.y] at this
  · have := h.z.mul hc hk hm
    rwa [mul_comm q.z] at this

theorem NearP.raise (h : NearP k m p q) {d : F32} {r : ℝ} (hd : Near k l d r) (hk : k ≤ 2000) (hm : m + l ≤ 2 ^ 100) :
    letI := ieee sin cos pow
    NearP (k + 1) (m + l) (p.raise d) (move ⟨0, 0, r⟩ q) := by
  have e : (move ⟨0, 0, r⟩ q) = ⟨q.x, q.y, q.z + r⟩ := by unfold move; simp
  rw [e]
  have hl := hd.nonneg
  exact ⟨(h.x.mono (Nat.le_succ k)).widen (by linarith) (size_add h.x.size hd.size),
    (h.y.mono (Nat.le_succ k)).widen (by linarith) (size_add h.x.size hd.size), h.z.add hd hk hm⟩

/-- one coordinate of a turned point: the product with the turned axis adds nothing -/
theorem turn_cell {a b x y z : F32} {r s u v w : ℝ} (ha : Near j 1 a r) (hb : Near j 1 b s) (hx : Near k m x u)
    (hy : Near k m y v) (hz : Near k m z w) (hk : k + j ≤ 1900) (hm : 2 * m ≤ 2 ^ 100) :
    Near (k + j + 2) (2 * m) (ieeeAdd (ieeeAdd (ieeeMul a x) (ieeeMul b y)) (ieeeMul 0 z)) (r * u + s * v) := by
  have h0 := hx.nonneg
  have h1 := (ha.mul hx (by omega) (by linarith)).mono (show j + k + 1 ≤ k + j + 1 by omega)
  have h2 := (hb.mul hy (by omega) (by linarith)).mono (show j + k + 1 ≤ k + j + 1 by omega)
  have h3 := h1.add h2 (by omega) (by linarith)
  have h4 := h3.add_zero (Near.zero.zero_mul hz) (by omega) (by linarith)
  have e1 : (1 : ℝ) * m + 1 * m = 2 * m := by ring
  have e2 : r * u + s * v + 0 * w = r * u + s * v := by ring
  rw [e1, e2] at h4
  exact h4

/-- the coordinate along the axis stays as it is -/
theorem axis_cell {x y z : F32} {u v w : ℝ} (hx : Near k m x u) (hy : Near k m y v) (hz : Near k m z w)
    (hk : k ≤ 1900) (hm : m ≤ 2 ^ 100) :
    Near k m (ieeeAdd (ieeeAdd (ieeeMul 0 x) (ieeeMul 0 y)) (ieeeMul f32One z)) w := by
  have h1 := (Near.zero.zero_mul hx).add_zero (Near.zero.zero_mul hy) (by omega) (by norm_num)
  have h2 := h1.zero_add (Near.one_mul exact_one' hz (by omega) hm) (by omega) hm
  have e : 0 * u + 0 * v + 1 * w = w := by ring
  rwa [e] at h2

/-- a point turned about the z axis with `Mat3` -/
theorem NearP.turned (h : NearP k m p q) {t : F32} {c g : ℝ} (hs : Near j 1 (sin t) g) (hc : Near j 1 (cos t) c)
    (hk : k + j ≤ 1900) (hm : 2 * m ≤ 2 ^ 100) :
    letI := ieee sin cos pow
    NearP (k + j + 2) (2 * m) ((Mat3.rotateZ t).multiplyVector p) (turnZ c g q) := by
  have h0 := h.x.nonneg
  refine ⟨?_, ?_, ?_⟩
  · have := turn_cell hc hs.neg h.x h.y h.z (by omega) hm
    have e : c * q.x + -g * q.y = c * q.x - g * q.y := by ring
    rw [e] at this
    exact this
  · have := turn_cell hs hc h.x h.y h.z (by omega) hm
    exact this
  · have := axis_cell h.x h.y h.z (by omega) (by linarith)
    exact (this.mono (by omega)).widen (by linarith)
      (by rcases h.x.size with h | h
          · left; rw [h]; ring
          · right; linarith)

/-- dividing by one -/
theorem over_one {x : F32} (hx : Exact x 1) : Exact (ieeeDiv f32One x) 1 := by
  have h := div_rounds exact_one'.1 hx.1 (by rw [hx.2]; norm_num) (by rw [hx.2, value_one]; norm_num)
  rw [hx.2, value_one, div_one] at h
  exact h.get exact_one'

/-- the fourth row of a turning or moving matrix -/
theorem fourth_cell {x y z : F32} {u v w : ℝ} (hx : Near k m x u) (hy : Near k m y v) (hz : Near k m z w) :
    Exact (ieeeAdd (ieeeAdd (ieeeAdd (ieeeMul 0 x) (ieeeMul 0 y)) (ieeeMul 0 z)) f32One) 1 := by
  have h1 := (Near.zero.zero_mul hx).add_zero (Near.zero.zero_mul hy) (by omega) (by norm_num)
  have h2 := h1.add_zero (Near.zero.zero_mul hz) (by omega) (by norm_num)
  have h3 := h2.zero_add Near.one (by omega) (by norm_num)
  refine ⟨h3.finite, ?_⟩
  have := h3.error
  rw [grow_zero, sub_self, mul_zero] at this
  have := abs_nonpos_iff.1 this
  linarith

/-- a point turned about the z axis with `Matrix3D` -/
theorem NearP.row_turned (h : NearP k m p q) {t : F32} {c g : ℝ} (hs : Near j 1 (sin t) g) (hc : Near j 1 (cos t) c)
    (hk : k + j ≤ 1900) (hm : 2 * m ≤ 2 ^ 100) :
    letI := ieee sin cos pow
    NearP (k + j + 2) (2 * m) ((Matrix3D.rotateZ t).transformVertex p) (turnZ c g q) := by
  have h0 := h.x.nonneg
  have hw := over_one (fourth_cell h.x h.y h.z)
  have fin : ∀ {i : ℕ} {t : ℝ} {c : F32} {r : ℝ}, Near i t c r → i ≤ 1990 → t ≤ 2 ^ 100 →
      Near i t (ieeeMul (ieeeAdd c 0) (ieeeDiv f32One (ieeeAdd (ieeeAdd (ieeeAdd (ieeeMul 0 p.x) (ieeeMul 0 p.y))
        (ieeeMul 0 p.z)) f32One))) r := by
    intro i t c r hcell hi ht
    have := (hcell.add_zero Near.zero (by omega) ht).mul_one hw (by omega) ht
    have e : (r + 0) * 1 = r := by ring
    rwa [e] at this
  refine ⟨?_, ?_, ?_⟩
  · have := turn_cell hc hs.neg h.x h.y h.z (by omega) hm
    have e : c * q.x + -g * q.y = c * q.x - g * q.y := by ring
    rw [e] at this
    exact fin this (by omega) hm
  · have := turn_cell hs hc h.x h.y h.z (by omega) hm
    exact fin this (by omega) hm
  · have := fin (axis_cell h.x h.y h.z (by omega) (by linarith)) (by omega) (by linarith)
    exact (this.mono (by omega)).widen (by linarith)
      (by rcases h.x.size with h | h
          · left; rw [h]; ring
          · right; linarith)

/-- a turned normal with `Matrix3D` -/
theorem NearP.row_normal (h : NearP k m p q) {t : F32} {c g : ℝ} (hs : Near j 1 (sin t) g) (hc : Near j 1 (cos t) c)
    (hk : k + j ≤ 1900) (hm : 2 * m ≤ 2 ^ 100) :
    letI := ieee sin cos pow
    NearP (k + j + 2) (2 * m) ((Matrix3D.rotateZ t).transformNormal p) (turnZ c g q) := by
  have h0 := h.x.nonneg
  refine ⟨?_, ?_, ?_⟩
  · have := turn_cell hc hs.neg h.x h.y h.z (by omega) hm
    have e : c * q.x + -g * q.y = c * q.x - g * q.y := by ring
    rw [e] at this
    exact this
  · have := turn_cell hs hc h.x h.y h.z (by omega) hm
    exact this
  · have := axis_cell h.x h.y h.z (by omega) (by linarith)
    exact (this.mono (by omega)).widen (by linarith)
      (by rcases h.x.size with h | h
          · left; rw [h]; ring
          · right; linarith)

theorem Near.to_exact {m : ℝ} {x : F32} {r : ℝ} (h : Near 0 m x r) : Exact x r := by
  refine ⟨h.finite, ?_⟩
  have := h.error
  rw [grow_zero, sub_self, MulZeroClass.mul_zero] at this
  have := abs_nonpos_iff.1 this
  linarith

/-- a point placed with a matrix about the z axis -/
theorem NearP.by_matrix {i : ℕ} {R : ℝ} {M : Matrix3D F32} (h : NearP k m p q) {u00 u01 u10 u11 u22 : ℝ}
    (c00 : Near i R M.r0.c0 u00) (c01 : Near i R M.r0.c1 u01) (c10 : Near i R M.r1.c0 u10) (c11 : Near i R M.r1.c1 u11)
    (c22 : Near i R M.r2.c2 u22) (e02 : Near 0 0 M.r0.c2 0) (e12 : Near 0 0 M.r1.c2 0) (e20 : Near 0 0 M.r2.c0 0)
    (e21 : Near 0 0 M.r2.c1 0) (e30 : Near 0 0 M.r3.c0 0) (e31 : Near 0 0 M.r3.c1 0) (e32 : Near 0 0 M.r3.c2 0)
    (w0 : Near 0 0 M.r0.c3 0) (w1 : Near 0 0 M.r1.c3 0) (w2 : Near 0 0 M.r2.c3 0) (w3 : Near 0 1 M.r3.c3 1)
    (hk : k + i ≤ 1900) (hm : 2 * (m * R) ≤ 2 ^ 100) (h1 : 1 ≤ m) (hR : 1 ≤ R) :
    letI := ieee sin cos pow
    NearP (k + i + 2) (2 * (m * R)) (M.transformVertex p)
      ⟨u00 * q.x + u10 * q.y, u01 * q.x + u11 * q.y, u22 * q.z⟩ := by
  have hmR : 1 ≤ m * R := by nlinarith
  have zz : ∀ {a b : F32} {u v : ℝ}, Near 0 0 a u → Near 0 0 b v → Near 0 0 (ieeeAdd a b) (u + v) :=
    fun ha hb => ha.add_zero hb (by omega) (by norm_num)
  have wp := (zz (zz (w0.zero_mul h.x) (w1.zero_mul h.y)) (w2.zero_mul h.z)).zero_add w3 (by omega) (by norm_num)
  have inv := wp.to_exact
  have ew : 0 * q.x + 0 * q.y + 0 * q.z + 1 = 1 := by ring
  rw [ew] at inv
  have inv := over_one inv
  have pair : ∀ {x y a b : F32} {u v w t : ℝ}, Near i R a u → Near i R b v → Near k m x w →
      Near k m y t → Near (k + i + 2) (2 * (m * R)) (ieeeAdd (ieeeMul a x) (ieeeMul b y)) (u * w + v * t) := by
    intro x y a b u v w t ha hb hx hy
    have k1 := ha.mul hx (by omega) (by linarith)
    have k2 := hb.mul hy (by omega) (by linarith)
    have := k1.add k2 (by omega) (by linarith)
    rw [show R * m + R * m = 2 * (m * R) by ring] at this
    exact this.mono (by omega)
  refine ⟨?_, ?_, ?_⟩
  · have k1 := (((pair c00 c10 h.x h.y).add_zero (e20.zero_mul h.z) (by omega) hm).add_zero e30 (by omega) hm).mul_one inv
      (by omega) hm
    have e : (u00 * q.x + u10 * q.y + 0 * q.z + 0) * 1 = u00 * q.x + u10 * q.y := by ring
    rw [e] at k1
    exact k1
  · have k1 := (((pair c01 c11 h.x h.y).add_zero (e21.zero_mul h.z) (by omega) hm).add_zero e31 (by omega) hm).mul_one inv
      (by omega) hm
    have e : (u01 * q.x + u11 * q.y + 0 * q.z + 0) * 1 = u01 * q.x + u11 * q.y := by ring
    rw [e] at k1
    exact k1
  · have hzm : Near (i + k + 1) (R * m) _ _ := c22.mul h.z (by omega) (by linarith)
    have k1 := (((zz (e02.zero_mul h.x) (e12.zero_mul h.y)).zero_add hzm (by omega) (by linarith)).add_zero e32 (by omega)
      (by linarith)).mul_one inv (by omega) (by linarith)
    have e : (0 * q.x + 0 * q.y + u22 * q.z + 0) * 1 = u22 * q.z := by ring
    rw [e] at k1
    exact (k1.mono (by omega)).widen (by nlinarith) (Or.inr (by linarith))

attribute [local irreducible] ieeeAdd ieeeMul ieeeDiv in
/-- a point turned and stretched with a product of matrices -/
theorem NearP.turn_stretched {i : ℕ} {R : ℝ} (h : NearP k m p q) {t s : F32} {c g r : ℝ} (hs : Near j 1 (sin t) g)
    (hc : Near j 1 (cos t) c) (hr : Near i R s r) (hk : k + j + i ≤ 1800) (hm : 2 * (m * R) ≤ 2 ^ 100) (h1 : 1 ≤ m)
    (hR : 1 ≤ R) :
    letI := ieee sin cos pow
    NearP (k + j + i + 3) (2 * (m * R)) (((Matrix3D.rotateZ t).mult (.scaleUniform s)).transformVertex p)
      (stretch ⟨r, r, r⟩ (turnZ c g q)) := by
  have hmR : 1 ≤ m * R := by nlinarith
  have hRm : R ≤ m * R := by nlinarith
  have hR' : R ≤ 2 ^ 100 := by linarith
  have hmm : m ≤ m * R := by nlinarith
  -- the entries of the product
  have o : ∀ {k : ℕ} {l : ℝ} {y : F32} {v : ℝ}, Near k l y v → Near 0 0 (ieeeMul 0 y) (0 * v) :=
    fun hy => Near.zero.zero_mul hy
  have o' : ∀ {k : ℕ} {l : ℝ} {y : F32} {v : ℝ}, Near k l y v → Near 0 0 (ieeeMul y 0) (v * 0) :=
    fun hy => hy.mul_zero Near.zero
  have zz : ∀ {a b : F32} {u v : ℝ}, Near 0 0 a u → Near 0 0 b v → Near 0 0 (ieeeAdd a b) (u + v) :=
    fun ha hb => ha.add_zero hb (by omega) (by norm_num)
  have trig : ∀ {x : F32} {u : ℝ}, Near j 1 x u → Near (i + j + 1) R (ieeeMul s x) (r * u) := fun hx => by
    have := hr.mul hx (by omega) (by linarith)
    rwa [mul_one] at this
  have c00 : Near (i + j + 1) R (ieeeAdd (ieeeAdd (ieeeAdd (ieeeMul s (cos t)) (ieeeMul 0 (sin t))) (ieeeMul 0 0)) (ieeeMul 0 0))
      (r * c + 0 * g + 0 * 0 + 0 * 0) :=
    (((trig hc).add_zero (o hs) (by omega) hR').add_zero (o Near.zero) (by omega) hR').add_zero (o Near.zero) (by omega) hR'
  have c10 : Near (i + j + 1) R (ieeeAdd (ieeeAdd (ieeeAdd (ieeeMul s (sin t).neg) (ieeeMul 0 (cos t))) (ieeeMul 0 0))
      (ieeeMul 0 0)) (r * -g + 0 * c + 0 * 0 + 0 * 0) :=
    (((trig hs.neg).add_zero (o hc) (by omega) hR').add_zero (o Near.zero) (by omega) hR').add_zero (o Near.zero) (by omega) hR'
  have c01 : Near (i + j + 1) R (ieeeAdd (ieeeAdd (ieeeAdd (ieeeMul 0 (cos t)) (ieeeMul s (sin t))) (ieeeMul 0 0)) (ieeeMul 0 0))
      (0 * c + r * g + 0 * 0 + 0 * 0) :=
    (((o hc).zero_add (trig hs) (by omega) hR').add_zero (o Near.zero) (by omega) hR').add_zero (o Near.zero) (by omega) hR'
  have c11 : Near (i + j + 1) R (ieeeAdd (ieeeAdd (ieeeAdd (ieeeMul 0 (sin t).neg) (ieeeMul s (cos t))) (ieeeMul 0 0))
      (ieeeMul 0 0)) (0 * -g + r * c + 0 * 0 + 0 * 0) :=
    (((o hs.neg).zero_add (trig hc) (by omega) hR').add_zero (o Near.zero) (by omega) hR').add_zero (o Near.zero) (by omega) hR'
  have z4 : ∀ {a b d f : F32} {u v w x : ℝ}, Near 0 0 a u → Near 0 0 b v → Near 0 0 d w → Near 0 0 f x →
      Near 0 0 (ieeeAdd (ieeeAdd (ieeeAdd a b) d) f) (u + v + w + x) := fun ha hb hd hf => zz (zz (zz ha hb) hd) hf
  have c22 : Near i R (ieeeAdd (ieeeAdd (ieeeAdd (ieeeMul 0 0) (ieeeMul 0 0)) (ieeeMul s f32One)) (ieeeMul 0 0))
      (0 * 0 + 0 * 0 + r * 1 + 0 * 0) :=
    ((zz (o Near.zero) (o Near.zero)).zero_add (hr.mul_one exact_one' (by omega) hR') (by omega) hR').add_zero
      (o Near.zero) (by omega) hR'
  have c33 : Near 0 1 (ieeeAdd (ieeeAdd (ieeeAdd (ieeeMul 0 0) (ieeeMul 0 0)) (ieeeMul 0 0)) (ieeeMul f32One f32One))
      (0 * 0 + 0 * 0 + 0 * 0 + 1 * 1) :=
    (zz (zz (o Near.zero) (o Near.zero)) (o Near.zero)).zero_add (Near.one.mul_one exact_one' (by omega) (by norm_num))
      (by omega) (by norm_num)
  have w0 := z4 (o hc) (o hs) (o Near.zero) (o' Near.one)
  have w1 := z4 (o hs.neg) (o hc) (o Near.zero) (o' Near.one)
  have w2 := z4 (o Near.zero) (o Near.zero) (o Near.one) (o' Near.one)
  have e20 := z4 (o' hr) (o Near.zero) (o Near.one) (o Near.zero)
  have e30 := z4 (o' hr) (o Near.zero) (o Near.zero) (o Near.one)
  have e21 := z4 (o Near.zero) (o' hr) (o Near.one) (o Near.zero)
  have e31 := z4 (o Near.zero) (o' hr) (o Near.zero) (o Near.one)
  have e02 := z4 (o hc) (o hs) (o' hr) (o Near.zero)
  have e12 := z4 (o hs.neg) (o hc) (o' hr) (o Near.zero)
  have e32 := z4 (o Near.zero) (o Near.zero) (o' hr) (o Near.one)
  simp only [MulZeroClass.zero_mul, MulZeroClass.mul_zero, _root_.add_zero, _root_.zero_add, _root_.mul_one] at c00 c01 c10 c11 c22 c33 w0 w1 w2 e20 e30 e21 e31 e02 e12 e32
  have := NearP.by_matrix (sin := sin) (cos := cos) (pow := pow) (M := @Matrix3D.mult F32
    (@instOpsF32OfArith (ieee sin cos pow)) (@Matrix3D.rotateZ F32 (@instOpsF32OfArith (ieee sin cos pow)) t)
    (@Matrix3D.scaleUniform F32 (@instOpsF32OfArith (ieee sin cos pow)) s)) h c00 c01 c10 c11
    (c22.mono (show i ≤ i + j + 1 by omega)) e02 e12 e20 e21 e30 e31 e32 w0 w1 w2 c33 (by omega) hm h1 hR
  have e : (⟨r * c * q.x + r * -g * q.y, r * g * q.x + r * c * q.y, r * q.z⟩ : V3 ℝ) =
      stretch ⟨r, r, r⟩ (turnZ c g q) := by
    unfold stretch turnZ
    dsimp only
    congr 1 <;> ring
  rw [e] at this
  have ek : k + (i + j + 1) + 2 = k + j + i + 3 := by omega
  rw [ek] at this
  exact this

end
end Rounding
end Vpin
