import Verif.Lemmas.NearUnit
/-! Rounding with a matrix that turns about two axes. -/
namespace Vpin
open Geometry
namespace Rounding

variable {sin cos : F32 → F32} {pow : F32 → F32 → F32} {k i : ℕ} {m : ℝ} {p : V3 F32} {q : V3 ℝ}

/-- the nine numbers of a matrix, with at most `i` roundings in each -/
structure Turning (i : ℕ) (M : Matrix3D F32) (x y z : V3 ℝ) : Prop where
  x : NearP i 1 ⟨M.r0.c0, M.r0.c1, M.r0.c2⟩ x
  y : NearP i 1 ⟨M.r1.c0, M.r1.c1, M.r1.c2⟩ y
  z : NearP i 1 ⟨M.r2.c0, M.r2.c1, M.r2.c2⟩ z
  mx : Near 0 0 M.r3.c0 0
  my : Near 0 0 M.r3.c1 0
  mz : Near 0 0 M.r3.c2 0
  w0 : Near 0 0 M.r0.c3 0
  w1 : Near 0 0 M.r1.c3 0
  w2 : Near 0 0 M.r2.c3 0
  w3 : Near 0 1 M.r3.c3 1

/-- a row of numbers times a point -/
theorem full_cell {a b c x y z : F32} {r s t u v w : ℝ} (ha : Near i 1 a r) (hb : Near i 1 b s) (hc : Near i 1 c t)
    (hx : Near k m x u) (hy : Near k m y v) (hz : Near k m z w) (hk : k + i ≤ 1900) (hm : 3 * m ≤ 2 ^ 100) :
    Near (k + i + 3) (3 * m) (ieeeAdd (ieeeAdd (ieeeMul a x) (ieeeMul b y)) (ieeeMul c z)) (r * u + s * v + t * w) := by
  have h0 := hx.nonneg
  have mul : ∀ {a x : F32} {r u : ℝ}, Near i 1 a r → Near k m x u → Near (k + i + 1) m (ieeeMul a x) (r * u) :=
    fun ha hx => by
      have := (ha.mul hx (by omega) (by linarith)).mono (show i + k + 1 ≤ k + i + 1 by omega)
      rwa [one_mul] at this
  have h1 := (mul ha hx).add (mul hb hy) (by omega) (by linarith)
  have h2 := h1.add ((mul hc hz).mono (show k + i + 1 ≤ k + i + 1 + 1 by omega)) (by omega) (by linarith)
  rw [show m + m + m = 3 * m by ring] at h2
  exact h2

/-- the sum of three vectors, each stretched -/
def combined (x y z q : V3 ℝ) : V3 ℝ :=
  ⟨x.x * q.x + y.x * q.y + z.x * q.z, x.y * q.x + y.y * q.y + z.y * q.z, x.z * q.x + y.z * q.y + z.z * q.z⟩

theorem Turning.normal {M : Matrix3D F32} {x y z : V3 ℝ} (h : Turning i M x y z) (hp : NearP k m p q) (hk : k + i ≤ 1900)
    (hm : 3 * m ≤ 2 ^ 100) :
    letI := ieee sin cos pow
    NearP (k + i + 3) (3 * m) (M.transformNormal p) (combined x y z q) :=
  ⟨full_cell h.x.x h.y.x h.z.x hp.x hp.y hp.z hk hm, full_cell h.x.y h.y.y h.z.y hp.x hp.y hp.z hk hm,
    full_cell h.x.z h.y.z h.z.z hp.x hp.y hp.z hk hm⟩

theorem Turning.vertex {M : Matrix3D F32} {x y z : V3 ℝ} (h : Turning i M x y z) (hp : NearP k m p q) (hk : k + i ≤ 1900)
    (hm : 3 * m ≤ 2 ^ 100) :
    letI := ieee sin cos pow
    NearP (k + i + 3) (3 * m) (M.transformVertex p) (combined x y z q) := by
  have zz : ∀ {a b : F32} {u v : ℝ}, Near 0 0 a u → Near 0 0 b v → Near 0 0 (ieeeAdd a b) (u + v) :=
    fun ha hb => ha.add_zero hb (by omega) (by norm_num)
  have wp := (zz (zz (h.w0.zero_mul hp.x) (h.w1.zero_mul hp.y)) (h.w2.zero_mul hp.z)).zero_add h.w3 (by omega) (by norm_num)
  have inv := wp.to_exact
  have ew : 0 * q.x + 0 * q.y + 0 * q.z + 1 = 1 := by ring
  rw [ew] at inv
  have inv := over_one inv
  have one : ∀ {x : F32} {r : ℝ} {d : F32}, Near (k + i + 3) (3 * m) x r → Near 0 0 d 0 →
      Near (k + i + 3) (3 * m) (ieeeMul (ieeeAdd x d) (ieeeDiv f32One (ieeeAdd (ieeeAdd (ieeeAdd (ieeeMul M.r0.c3 p.x)
        (ieeeMul M.r1.c3 p.y)) (ieeeMul M.r2.c3 p.z)) M.r3.c3))) r := fun hx hd => by
    have := (hx.add_zero hd (by omega) hm).mul_one inv (by omega) hm
    rwa [add_zero, mul_one] at this
  exact ⟨one (full_cell h.x.x h.y.x h.z.x hp.x hp.y hp.z hk hm) h.mx,
    one (full_cell h.x.y h.y.y h.z.y hp.x hp.y hp.z hk hm) h.my,
    one (full_cell h.x.z h.y.z h.z.z hp.x hp.y hp.z hk hm) h.mz⟩

attribute [local irreducible] ieeeAdd ieeeMul ieeeDiv in
/-- the matrix of a turn about z -/
theorem turning_z {t : F32} {c g : ℝ} (hs : Near i 1 (sin t) g) (hc : Near i 1 (cos t) c) :
    letI := ieee sin cos pow
    Turning i (Matrix3D.rotateZ t) ⟨c, g, 0⟩ ⟨-g, c, 0⟩ ⟨0, 0, 1⟩ := by
  have z : Near i 1 0 0 := (Near.zero.mono (Nat.zero_le _)).widen (by norm_num) (Or.inr le_rfl)
  have o : Near i 1 f32One 1 := Near.one.mono (Nat.zero_le _)
  exact ⟨⟨hc, hs, z⟩, ⟨hs.neg, hc, z⟩, ⟨z, z, o⟩, Near.zero, Near.zero, Near.zero, Near.zero, Near.zero, Near.zero, Near.one⟩

attribute [local irreducible] ieeeAdd ieeeMul ieeeDiv in
/-- the matrix of a turn about x followed by one about z -/
theorem turning_xz {j : ℕ} {t u : F32} {c g d h : ℝ} (ha : Near j 1 (sin t) g) (ca : Near j 1 (cos t) c)
    (hb : Near i 1 (sin u) h) (cb : Near i 1 (cos u) d) (hk : i + j ≤ 1800) :
    letI := ieee sin cos pow
    Turning (i + j + 1) ((Matrix3D.rotateX t).mult (.rotateZ u)) ⟨d, h, 0⟩ ⟨-(h * c), d * c, g⟩ ⟨h * g, -(d * g), c⟩ := by
  have big : (1 : ℝ) ≤ 2 ^ 100 := by norm_num
  have o : ∀ {k : ℕ} {l : ℝ} {y : F32} {v : ℝ}, Near k l y v → Near 0 0 (ieeeMul 0 y) 0 :=
    fun hy => by simpa using Near.zero.zero_mul hy
  have o' : ∀ {k : ℕ} {l : ℝ} {y : F32} {v : ℝ}, Near k l y v → Near 0 0 (ieeeMul y 0) 0 :=
    fun hy => by simpa using hy.mul_zero Near.zero
  have zz : ∀ {a b : F32}, Near 0 0 a 0 → Near 0 0 b 0 → Near 0 0 (ieeeAdd a b) 0 :=
    fun ha hb => by simpa using ha.add_zero hb (by omega) (by norm_num)
  have az : ∀ {k : ℕ} {a b : F32} {u : ℝ}, k ≤ 2000 → Near k 1 a u → Near 0 0 b 0 → Near k 1 (ieeeAdd a b) u :=
    fun hk ha hb => by simpa using ha.add_zero hb hk big
  have za : ∀ {k : ℕ} {a b : F32} {u : ℝ}, k ≤ 2000 → Near 0 0 a 0 → Near k 1 b u → Near k 1 (ieeeAdd a b) u :=
    fun hk ha hb => by simpa using ha.zero_add hb hk big
  have z4 : ∀ {a b e f : F32}, Near 0 0 a 0 → Near 0 0 b 0 → Near 0 0 e 0 → Near 0 0 f 0 →
      Near 0 0 (ieeeAdd (ieeeAdd (ieeeAdd a b) e) f) 0 := fun ha hb he hf => zz (zz (zz ha hb) he) hf
  have n1 : ∀ {k : ℕ} {a b e f : F32} {u : ℝ}, k ≤ 2000 → Near k 1 a u → Near 0 0 b 0 → Near 0 0 e 0 → Near 0 0 f 0 →
      Near k 1 (ieeeAdd (ieeeAdd (ieeeAdd a b) e) f) u := fun hk ha hb he hf => az hk (az hk (az hk ha hb) he) hf
  have n2 : ∀ {k : ℕ} {a b e f : F32} {u : ℝ}, k ≤ 2000 → Near 0 0 a 0 → Near k 1 b u → Near 0 0 e 0 → Near 0 0 f 0 →
      Near k 1 (ieeeAdd (ieeeAdd (ieeeAdd a b) e) f) u := fun hk ha hb he hf => az hk (az hk (za hk ha hb) he) hf
  have n3 : ∀ {k : ℕ} {a b e f : F32} {u : ℝ}, k ≤ 2000 → Near 0 0 a 0 → Near 0 0 b 0 → Near k 1 e u → Near 0 0 f 0 →
      Near k 1 (ieeeAdd (ieeeAdd (ieeeAdd a b) e) f) u := fun hk ha hb he hf => az hk (za hk (zz ha hb) he) hf
  have n4 : ∀ {k : ℕ} {a b e f : F32} {u : ℝ}, k ≤ 2000 → Near 0 0 a 0 → Near 0 0 b 0 → Near 0 0 e 0 → Near k 1 f u →
      Near k 1 (ieeeAdd (ieeeAdd (ieeeAdd a b) e) f) u := fun hk ha hb he hf => za hk (zz (zz ha hb) he) hf
  have m1 : ∀ {k : ℕ} {a : F32} {u : ℝ}, k ≤ 2000 → Near k 1 a u → Near k 1 (ieeeMul a f32One) u :=
    fun hk ha => by simpa using ha.mul_one exact_one' hk big
  have m2 : ∀ {k : ℕ} {a : F32} {u : ℝ}, k ≤ 2000 → Near k 1 a u → Near k 1 (ieeeMul f32One a) u :=
    fun hk ha => by simpa using Near.one_mul exact_one' ha hk big
  have mm : ∀ {a b : F32} {u v : ℝ}, Near i 1 a u → Near j 1 b v → Near (i + j + 1) 1 (ieeeMul a b) (u * v) :=
    fun ha hb => by simpa using ha.mul hb (by omega) (by norm_num)
  have w : ∀ {a : F32}, Near 0 0 a 0 → Near (i + j + 1) 1 a 0 := fun ha =>
    (ha.mono (Nat.zero_le _)).widen (by norm_num) (Or.inr le_rfl)
  have nz := Near.zero
  have no := Near.one
  refine ⟨⟨?_, ?_, ?_⟩, ⟨?_, ?_, ?_⟩, ⟨?_, ?_, ?_⟩, ?_, ?_, ?_, ?_, ?_, ?_, ?_⟩
  · exact (n1 (by omega) (m1 (by omega) cb) (o' hb.neg) (o nz) (o nz)).mono (by omega)
  · exact (n1 (by omega) (m1 (by omega) hb) (o' cb) (o nz) (o nz)).mono (by omega)
  · exact w (z4 (o no) (o nz) (o' no) (o nz))
  · have := n2 (by omega) (o' cb) (mm hb.neg ca) (o ha) (o nz)
    rw [neg_mul] at this
    exact this
  · exact n2 (by omega) (o' hb) (mm cb ca) (o ha) (o nz)
  · exact (n3 (by omega) (o nz) (o ca) (m2 (by omega) ha) (o nz)).mono (by omega)
  · have := n2 (by omega) (o' cb) (mm hb.neg ha.neg) (o ca) (o nz)
    rw [neg_mul_neg] at this
    exact this
  · have := n2 (by omega) (o' hb) (mm cb ha.neg) (o ca) (o nz)
    rw [mul_neg] at this
    exact this
  · exact (n3 (by omega) (o nz) (o ha.neg) (m2 (by omega) ca) (o nz)).mono (by omega)
  · exact z4 (o' cb) (o' hb.neg) (o nz) (o no)
  · exact z4 (o' hb) (o' cb) (o nz) (o no)
  · exact z4 (o nz) (o nz) (o' no) (o no)
  · exact z4 (o no) (o nz) (o nz) (o' no)
  · exact z4 (o nz) (o ca) (o ha) (o' no)
  · exact z4 (o nz) (o ha.neg) (o ca) (o' no)
  · exact n4 (by omega) (o nz) (o nz) (o nz) (m1 (by omega) no)

end Rounding
end Vpin
