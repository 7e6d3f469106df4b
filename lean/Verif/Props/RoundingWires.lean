import Verif.Lemmas.NearFull
import Verif.Props.RoundingParts
import Verif.Model.ItemMesh
/-! C96, continued: normals that are divided by their length, and triggers made of wire. -/
namespace Vpin
open Rounding Geometry

variable {sin cos : F32 → F32} {pow : F32 → F32 → F32}

section
variable (M : MeshTables) {V R W : ℝ} {n : ℕ}

theorem turn_about_one {c s : ℝ} (h : c * c + s * s = 1) {q : V3 ℝ} (hq : AboutOne q) : AboutOne (turnZ c s q) := by
  have e : (c * q.x - s * q.y) * (c * q.x - s * q.y) + (s * q.x + c * q.y) * (s * q.x + c * q.y) + q.z * q.z =
      q.x * q.x + q.y * q.y + q.z * q.z := by linear_combination (q.x * q.x + q.y * q.y) * h
  unfold AboutOne turnZ
  dsimp only
  rw [e]
  exact hq

theorem tilt_about_one {c s : ℝ} (h : c * c + s * s = 1) {q : V3 ℝ} (hq : AboutOne q) : AboutOne (turnX c s q) := by
  have e : q.x * q.x + (c * q.y - s * q.z) * (c * q.y - s * q.z) + (s * q.y + c * q.z) * (s * q.y + c * q.z) =
      q.x * q.x + q.y * q.y + q.z * q.z := by linear_combination (q.y * q.y + q.z * q.z) * h
  unfold AboutOne turnX
  dsimp only
  rw [e]
  exact hq

theorem cos_sin_one (a : ℝ) : Real.cos a * Real.cos a + Real.sin a * Real.sin a = 1 := by
  have := Real.cos_sq_add_sin_sq a
  nlinarith

/-- **C96**: the normals of a gate are turned with it and divided by their length. -/
theorem C96_gate_normals (T : CloseTrig sin cos) (hn : 1 ≤ n) (hn' : n ≤ 400) (g : Gate)
    (ha : AtMost (360 * n) g.rotation) :
    letI := ieee sin cos pow
    let e : ℝ := (120 * n + 135) / 2 ^ 23
    ∀ bracket wire, buildGateMeshes M g = some (bracket, wire) →
      (UnitNormals (M.gate (g.gate_type.getD .WireW)) →
        FollowsNormals e wire (M.gate (g.gate_type.getD .WireW)) fun q => unitOf (turnedBy (value g.rotation) q)) ∧
      (∀ m, bracket = some m → UnitNormals M.gateBracket →
        FollowsNormals e m M.gateBracket fun q => unitOf (turnedBy (value g.rotation) q)) := by
  intro e bracket wire h
  obtain ⟨hs, hc⟩ := degrees_near T hn ha (by omega)
  have hn1 : (n : ℝ) ≤ 400 := by exact_mod_cast hn'
  have key : ∀ {t : MeshTable} {f : V3 F32 → V3 F32}, UnitNormals t →
      FollowsNormals e (t.mesh f fun v => letI := ieee sin cos pow; (rowTurnedNormal g.rotation v).normalized) t
        fun q => unitOf (turnedBy (value g.rotation) q) := by
    intro t f ht
    refine follows_normals fun v hv => ?_
    have k1 := (NearP.of_box (ht v hv).1 le_rfl).row_normal (pow := pow) hs hc (by omega) (by norm_num)
    have k2 := k1.within (by omega) (e := (4 * n + 4) / 2 ^ 22) (le_of_eq (by push_cast; ring))
    have k3 := unit_near (sin := sin) (cos := cos) (pow := pow) k2
      (by rw [div_le_iff₀ (by positivity)]; norm_num; linarith) (turn_about_one (cos_sin_one _) (ht v hv).2)
    have e1 : (15 * ((4 * n + 4) / 2 ^ 22) + 15 / 2 ^ 23 : ℝ) = e := by
      show _ = ((120 * n + 135) / 2 ^ 23 : ℝ)
      ring
    rw [e1] at k3
    exact k3
  unfold buildGateMeshes at h
  split at h
  · cases h
  · unfold buildGateMeshesUnchecked at h
    cases h
    exact ⟨fun ht => key ht, fun m hm ht => of_if (P := fun m => FollowsNormals e m _ _) hm (key ht)⟩

theorem trigger_about_one (shape : TriggerShape) (rotation : ℝ) {q : V3 ℝ} (h : AboutOne q) :
    AboutOne (triggerTurn shape rotation q) := by
  unfold triggerTurn
  refine turn_about_one (cos_sin_one _) ?_
  split
  · exact tilt_about_one (cos_sin_one _) h
  · exact tilt_about_one (cos_sin_one _) h
  · exact h

theorem value_m23 : value fm23 = -23 := by
  rw [value_val, show F32.val fm23 = -23 * 2 ^ 149 by decide +kernel]
  rw [Int.cast_mul, Int.cast_pow, Int.cast_neg, Int.cast_ofNat, Int.cast_ofNat]
  field_simp

theorem value_140 : value f140 = 140 := by
  rw [value_val, show F32.val f140 = 140 * 2 ^ 149 by decide +kernel]
  rw [Int.cast_mul, Int.cast_pow, Int.cast_ofNat, Int.cast_ofNat]
  field_simp

theorem value_m19 : value fm19 = -19 := by
  rw [value_val, show F32.val fm19 = -19 * 2 ^ 149 by decide +kernel]
  rw [Int.cast_mul, Int.cast_pow, Int.cast_neg, Int.cast_ofNat, Int.cast_ofNat]
  field_simp

/-- the matrix of a trigger is near that of the turn -/
theorem trigger_turning (T : CloseTrig sin cos) (hn : 1 ≤ n) (hn' : n ≤ 400) (t : Trigger)
    (ha : AtMost (360 * n) t.rotation) :
    letI := ieee sin cos pow
    ∃ x y z : V3 ℝ, Turning (4 * n + 7) (triggerMatrix t.shape t.rotation) x y z ∧
      ∀ q, combined x y z q = triggerTurn t.shape (value t.rotation) q := by
  obtain ⟨hs, hc⟩ := degrees_near T hn ha (by omega)
  have tilted : ∀ {a : F32} {d : ℝ}, a.isFinite = true → value a = d → |d| ≤ 360 →
      letI := ieee sin cos pow
      ∃ x y z : V3 ℝ, Turning (4 * n + 7) ((Matrix3D.rotateX (Ops.radians a)).mult (.rotateZ (Ops.radians t.rotation))) x y z ∧
        ∀ q, combined x y z q = turnedBy (value t.rotation) (tiltedBy d q) := by
    intro a d fa va hd
    obtain ⟨h1, h2⟩ := degrees_near T (n := 1) le_rfl (x := a) ⟨fa, by rw [va]; simpa using hd⟩ (by norm_num)
    rw [va] at h1 h2
    have k := turning_xz (pow := pow) h1 h2 hs hc (by omega)
    rw [show 4 * n + 1 + (4 * 1 + 1) + 1 = 4 * n + 7 by ring] at k
    refine ⟨_, _, _, k, fun q => ?_⟩
    unfold combined turnedBy tiltedBy turnZ turnX
    congr 1 <;> ring
  have plain : letI := ieee sin cos pow
      ∃ x y z : V3 ℝ, Turning (4 * n + 7) (Matrix3D.rotateZ (Ops.radians t.rotation)) x y z ∧
        ∀ q, combined x y z q = turnedBy (value t.rotation) q := by
    have k := turning_z (pow := pow) hs hc
    refine ⟨_, _, _, ⟨k.x.mono (by omega), k.y.mono (by omega), k.z.mono (by omega), k.mx, k.my, k.mz, k.w0, k.w1, k.w2,
      k.w3⟩, fun q => ?_⟩
    unfold combined turnedBy turnZ
    congr 1 <;> ring
  unfold triggerMatrix triggerTurn
  cases t.shape
  · exact plain
  · exact plain
  · exact plain
  · exact tilted (by decide +kernel) value_m23 (by norm_num [abs_le])
  · exact plain
  · exact tilted (by decide +kernel) value_140 (by norm_num [abs_le])
  · exact plain
  · exact plain

theorem trigger_normal (T : CloseTrig sin cos) (hn : 1 ≤ n) (hn' : n ≤ 400) (t : Trigger)
    (ha : AtMost (360 * n) t.rotation) {v : V3 F32} (hv : InBox 1 v ∧ AboutOne (point v)) :
    letI := ieee sin cos pow
    Within ((180 * n + 510) / 2 ^ 23) ((triggerMatrix t.shape t.rotation).transformNormal v).normalized
      (unitOf (triggerTurn t.shape (value t.rotation) (point v))) := by
  have hn1 : (n : ℝ) ≤ 400 := by exact_mod_cast hn'
  obtain ⟨x, y, z, h, hq⟩ := trigger_turning (pow := pow) T hn hn' t ha
  have k1 := h.normal (sin := sin) (cos := cos) (pow := pow) (NearP.of_box hv.1 le_rfl) (by omega) (by norm_num)
  rw [hq] at k1
  have k2 := k1.within (by omega) (e := 3 * (4 * n + 11) / 2 ^ 23) (le_of_eq (by push_cast; ring))
  have k3 := unit_near (sin := sin) (cos := cos) (pow := pow) k2
    (by rw [div_le_iff₀ (by positivity)]; norm_num; linarith) (trigger_about_one _ _ hv.2)
  have e1 : (15 * (3 * (4 * n + 11) / 2 ^ 23) + 15 / 2 ^ 23 : ℝ) = (180 * n + 510) / 2 ^ 23 := by ring
  rw [e1] at k3
  exact k3

/-- **C96**: the normals of a trigger of any shape are turned with it and divided by their length. -/
theorem C96_trigger_normals (T : CloseTrig sin cos) (hn : 1 ≤ n) (hn' : n ≤ 400) (t : Trigger)
    (ha : AtMost (360 * n) t.rotation) :
    letI := ieee sin cos pow
    ∀ (m : RawMesh) (table : MeshTable), buildTriggerMesh M t = some m → M.trigger t.shape = some table →
      UnitNormals table →
      FollowsNormals ((180 * n + 510) / 2 ^ 23) m table fun q => unitOf (triggerTurn t.shape (value t.rotation) q) := by
  intro m table hm htab ht
  unfold buildTriggerMesh at hm
  split at hm
  · cases hm
  rw [htab] at hm
  cases hm
  unfold FollowsNormals
  rw [List.forall₂_map_left_iff]
  refine List.forall₂_same.2 fun v hv => ?_
  exact trigger_normal (pow := pow) T hn hn' t ha (ht v hv)

/-- a vertex of a wire moved along its normal -/
theorem thick_near {p nrm w : F32} {a u A W D E : ℝ} (hp : Calc D p a) (ha : |a| ≤ A) (hu : Calc E nrm u) (h1 : |u| ≤ 1)
    (hw : AtMost W w) (hW : 1 ≤ W) (hA : 1 ≤ A) (hA' : A + W ≤ 2 ^ 100) (hD : D ≤ A / 100) (hE : E ≤ 1 / 100) :
    Calc (D + A / 2 ^ 23 + W * (E + 2 / 2 ^ 23)) (ieeeAdd p (ieeeMul nrm w)) (a + value w * u) := by
  have hE0 : 0 ≤ E := (abs_nonneg _).trans hu.2
  have tiny : (1 : ℝ) / 2 ^ 150 ≤ 1 / 100 / 2 ^ 24 := by norm_num
  have big : (2 : ℝ) ^ 100 * 4 ≤ 2 ^ 127 := by norm_num
  have un : |value nrm| ≤ 101 / 100 := (hu.size h1).trans (by linarith)
  have pb : |value nrm * value w| ≤ 101 / 100 * W := by
    rw [abs_mul]; exact mul_le_mul un hw.2 (abs_nonneg _) (by norm_num)
  obtain ⟨fm, em⟩ := (mul_rounds hu.1 hw.1 (pb.trans (by linarith))).calc pb
  have k1 : |value nrm * value w - value w * u| ≤ W * E := by
    rw [show value nrm * value w - value w * u = value w * (value nrm - u) by ring, abs_mul]
    exact mul_le_mul hw.2 hu.2 (abs_nonneg _) (by linarith)
  have s23 : (1 : ℝ) / 2 ^ 23 ≤ 1 / 1000 := by norm_num
  have qb : |value (ieeeMul nrm w)| ≤ 102 / 100 * W := by
    have u1 := abs_le.1 em
    have u2 := abs_le.1 pb
    rw [abs_le]; constructor <;> linarith
  have pa : |value p| ≤ 101 / 100 * A := (hp.size ha).trans (by linarith)
  have sb : |value p + value (ieeeMul nrm w)| ≤ 102 / 100 * (A + W) := by
    have := abs_add_le (value p) (value (ieeeMul nrm w))
    linarith
  obtain ⟨fs, es⟩ := (add_rounds hp.1 fm (sb.trans (by linarith))).calc sb
  refine ⟨fs, ?_⟩
  have u1 := abs_le.1 es
  have u2 := abs_le.1 em
  have u3 := abs_le.1 k1
  have u4 := abs_le.1 hp.2
  rw [abs_le]
  constructor <;> linarith

theorem unit_le_one {q : V3 ℝ} (h : AboutOne q) :
    |(unitOf q).x| ≤ 1 ∧ |(unitOf q).y| ≤ 1 ∧ |(unitOf q).z| ≤ 1 := by
  have sx := mul_self_nonneg q.x
  have sy := mul_self_nonneg q.y
  have sz := mul_self_nonneg q.z
  have pos : 0 < lengthOf q := Real.sqrt_pos.2 (by linarith [h.1])
  have one : ∀ {a : ℝ}, a * a ≤ q.x * q.x + q.y * q.y + q.z * q.z → |a / lengthOf q| ≤ 1 := fun ha => by
    rw [abs_div, abs_of_pos pos, div_le_one pos]
    exact Real.le_sqrt_of_sq_le (by rw [sq_abs, sq]; exact ha)
  exact ⟨one (by linarith), one (by linarith), one (by linarith)⟩

/-- **C96**: the vertices of a trigger made of wire. The wires B and C are tilted, by -23 and 140 degrees, and C is 19 units
lower; all are turned, stretched in two directions, and made thicker along the normals. -/
theorem C96_wire (T : CloseTrig sin cos) (hV : 1 ≤ V) (hR : 1 ≤ R) (hW : 1 ≤ W) (hVR : 3 * (V * R) + 19 + W ≤ 2 ^ 90)
    (hn : 1 ≤ n) (hn' : n ≤ 400) (t : Trigger) (ha : AtMost (360 * n) t.rotation) (hx : AtMost R t.scale_x)
    (hy : AtMost R t.scale_y) (hw : AtMost W (t.wire_thickness.getD 0)) (z : ℝ)
    (hz : t.shape = .WireC ∧ z = -19 ∨ t.shape ∈ [TriggerShape.WireA, .WireB, .WireD, .Inder] ∧ z = 0) :
    letI := ieee sin cos pow
    let turn := triggerTurn t.shape (value t.rotation)
    let w := value (t.wire_thickness.getD 0)
    ∀ (m : RawMesh) (table : MeshTable), buildTriggerMesh M t = some m → M.trigger t.shape = some table →
      TableIn V table → UnitNormals table →
      List.Forall₂ (fun x v =>
        Within ((3 * (V * R) + 19) * ((4 * n + 14) / 2 ^ 23) + W * ((180 * n + 512) / 2 ^ 23)) x.pos
          (move (stretch ⟨w, w, w⟩ (unitOf (turn (point v.normal))))
            (move ⟨0, 0, z⟩ (stretch ⟨value t.scale_x, value t.scale_y, 1⟩ (turn (point v.pos))))))
        m.vertices table.vertices := by
  intro turn w m table hm htab ht hu
  have hn1 : (n : ℝ) ≤ 400 := by exact_mod_cast hn'
  have hVR1 : 1 ≤ V * R := by nlinarith
  have hV' : V ≤ V * R := by nlinarith
  have big : (2 : ℝ) ^ 90 * 8 + 5 ≤ 2 ^ 100 := by norm_num
  obtain ⟨x, y, d, h, hq⟩ := trigger_turning (pow := pow) T hn hn' t ha
  unfold buildTriggerMesh at hm
  split at hm
  · cases hm
  rw [htab] at hm
  cases hm
  rw [List.forall₂_map_left_iff]
  refine List.forall₂_same.2 fun v hv => ?_
  have kn := trigger_normal (pow := pow) T hn hn' t ha (hu v hv)
  have un := unit_le_one (trigger_about_one t.shape (value t.rotation) (hu v hv).2)
  have k1 := h.vertex (sin := sin) (cos := cos) (pow := pow) (NearP.of_box (ht v hv) hV) (by omega) (by linarith)
  rw [hq] at k1
  have k2 := k1.times (sin := sin) (cos := cos) (pow := pow) (s := ⟨value t.scale_x, value t.scale_y, 1⟩)
    (Near.of_atMost hx hR) (Near.of_atMost hy hR) (c := f32One) (Near.one.widen hR (Or.inr hR)) (by omega) (by linarith)
  have off : Near 0 19 (triggerZOffset t.shape) z := by
    rcases hz with ⟨h1, rfl⟩ | ⟨h1, rfl⟩
    · rw [h1]
      exact Near.exact ⟨by decide +kernel, value_m19⟩ (by norm_num [abs_le]) (by norm_num)
    · have e : triggerZOffset t.shape = 0 := by
        simp only [List.mem_cons, List.not_mem_nil, or_false] at h1
        rcases h1 with h1 | h1 | h1 | h1 <;> rw [h1] <;> rfl
      rw [e]
      exact Near.exact exact_zero' (by norm_num) (by norm_num)
  have k3 := k2.raise (sin := sin) (cos := cos) (pow := pow) (off.mono (Nat.zero_le _)) (by omega) (by linarith)
  have k4 := k3.within (by omega) (e := (3 * (V * R) + 19) * ((4 * n + 13) / 2 ^ 23)) (le_of_eq (by push_cast; ring))
  have small : (3 * (V * R) + 19) * ((4 * n + 13) / 2 ^ 23) ≤ (3 * (V * R) + 19) / 100 := by
    rw [div_eq_mul_inv _ (100 : ℝ)]
    exact mul_le_mul_of_nonneg_left (by rw [div_le_iff₀ (by positivity)]; norm_num; linarith) (by linarith)
  have smalln : ((180 * n + 510) / 2 ^ 23 : ℝ) ≤ 1 / 100 := by
    rw [div_le_iff₀ (by positivity)]; norm_num; linarith
  have e2 : ((3 * (V * R) + 19) * ((4 * n + 13) / 2 ^ 23) + (3 * (V * R) + 19) / 2 ^ 23 +
      W * ((180 * n + 510) / 2 ^ 23 + 2 / 2 ^ 23) : ℝ) =
      (3 * (V * R) + 19) * ((4 * n + 14) / 2 ^ 23) + W * ((180 * n + 512) / 2 ^ 23) := by ring
  have big3 : 3 * V * R + 19 = 3 * (V * R) + 19 := by ring
  obtain ⟨⟨f1, f2, f3⟩, e1', e2', e3'⟩ := k4
  obtain ⟨⟨g1, g2, g3⟩, d1, d2, d3⟩ := kn
  have q1 := thick_near ⟨f1, e1'⟩ (big3 ▸ k3.x.bound) ⟨g1, d1⟩ un.1 hw hW (by linarith) (by linarith) small smalln
  have q2 := thick_near ⟨f2, e2'⟩ (big3 ▸ k3.y.bound) ⟨g2, d2⟩ un.2.1 hw hW (by linarith) (by linarith) small smalln
  have q3 := thick_near ⟨f3, e3'⟩ (big3 ▸ k3.z.bound) ⟨g3, d3⟩ un.2.2 hw hW (by linarith) (by linarith) small smalln
  rw [e2] at q1 q2 q3
  have wire : usesWireThickness t.shape = true ∧ usesRadiusScaling t.shape = false := by
    rcases hz with ⟨h1, -⟩ | ⟨h1, -⟩
    · rw [h1]; exact ⟨rfl, rfl⟩
    · simp only [List.mem_cons, List.not_mem_nil, or_false] at h1
      rcases h1 with h1 | h1 | h1 | h1 <;> rw [h1] <;> exact ⟨rfl, rfl⟩
  unfold triggerVertex
  rw [wire.1, wire.2]
  exact ⟨⟨q1.1, q2.1, q3.1⟩, q1.2, q2.2, q3.2⟩

end

/-! ### The tables of the program meet the hypotheses -/

/-- a digit of a packed vertex -/
def packedDigit (n k : Nat) : Nat := n / 2 ^ (32 * k) % 2 ^ 32

/-- `F32.mag` of a digit, written so that it is quick to calculate -/
def digitMag (d : Nat) : Nat :=
  bif Nat.beq (d % 0x80000000 / 0x800000) 0 then d % 0x80000000 % 0x800000
  else (0x800000 + d % 0x80000000 % 0x800000) * 2 ^ (d % 0x80000000 / 0x800000 - 1)

/-- a digit is a finite number of at most the size `b` -/
def digitOk (b d : Nat) : Bool :=
  Nat.ble (d % 0x80000000 + 1) 0x7f800000 && Nat.ble (digitMag d) (b * 2 ^ 149)

/-- the coordinates of a packed vertex are at most `b`, those of the normal at most one, and the normal is about one
long -/
def packedOk (b n : Nat) : Bool :=
  digitOk b (packedDigit n 7) && digitOk b (packedDigit n 6) && digitOk b (packedDigit n 5) &&
    digitOk 1 (packedDigit n 4) && digitOk 1 (packedDigit n 3) && digitOk 1 (packedDigit n 2) &&
    Nat.ble (2 ^ 298) (2 * (digitMag (packedDigit n 4) ^ 2 + digitMag (packedDigit n 3) ^ 2 + digitMag (packedDigit n 2) ^ 2)) &&
    Nat.ble (digitMag (packedDigit n 4) ^ 2 + digitMag (packedDigit n 3) ^ 2 + digitMag (packedDigit n 2) ^ 2) (2 * 2 ^ 298)

theorem digitMag_eq (x : F32) : digitMag x.toNat = x.mag := by
  unfold digitMag F32.mag
  dsimp only
  by_cases h : x.toNat % 0x80000000 / 0x800000 = 0
  · rw [h, if_pos rfl]; rfl
  · rw [if_neg h, show Nat.beq (x.toNat % 0x80000000 / 0x800000) 0 = false by
      rw [Bool.eq_false_iff]; exact fun e => h (Nat.eq_of_beq_eq_true e)]
    rfl

theorem digitOk_spec {b : Nat} {x : F32} (h : digitOk b x.toNat = true) : AtMost b x := by
  unfold digitOk at h
  rw [Bool.and_eq_true, digitMag_eq] at h
  have h1 := Nat.le_of_ble_eq_true h.1
  have h2 := Nat.le_of_ble_eq_true h.2
  refine ⟨decide_eq_true (by omega), ?_⟩
  rw [abs_value, div_le_iff₀ (by positivity)]
  calc ((x.mag : ℕ) : ℝ) ≤ ((b * 2 ^ 149 : ℕ) : ℝ) := Nat.cast_le.2 h2
    _ = b * 2 ^ 149 := by rw [Nat.cast_mul, Nat.cast_pow, Nat.cast_ofNat]

theorem value_sq (x : F32) : value x * value x = (x.mag : ℝ) ^ 2 / (2 ^ 149 * 2 ^ 149) := by
  rw [← abs_mul_abs_self, abs_value]
  field_simp

theorem packedOk_spec {b n : Nat} (h : packedOk b n = true) :
    InBox b (unpackVertex n).pos ∧ InBox 1 (unpackVertex n).normal ∧ AboutOne (point (unpackVertex n).normal) := by
  have digit : ∀ k, packedDigit n k = (UInt32.ofNat (n / 2 ^ (32 * k))).toNat := fun k => by
    rw [UInt32.toNat_ofNat']; rfl
  unfold packedOk at h
  simp only [Bool.and_eq_true, digit, digitMag_eq] at h
  obtain ⟨⟨⟨⟨⟨⟨⟨p1, p2⟩, p3⟩, n1⟩, n2⟩, n3⟩, l1⟩, l2⟩ := h
  have one : ∀ {x : F32}, digitOk 1 x.toNat = true → AtMost 1 x := fun h => by
    have := digitOk_spec h
    rwa [Nat.cast_one] at this
  refine ⟨⟨digitOk_spec p1, digitOk_spec p2, digitOk_spec p3⟩, ⟨one n1, one n2, one n3⟩, ?_⟩
  have l1 := (Nat.cast_le (α := ℝ)).2 (Nat.le_of_ble_eq_true l1)
  have l2 := (Nat.cast_le (α := ℝ)).2 (Nat.le_of_ble_eq_true l2)
  rw [Nat.cast_mul, Nat.cast_add, Nat.cast_add, Nat.cast_pow, Nat.cast_pow, Nat.cast_pow, Nat.cast_pow, Nat.cast_ofNat,
    show (298 : ℕ) = 149 + 149 by rfl, pow_add] at l1
  rw [Nat.cast_mul, Nat.cast_add, Nat.cast_add, Nat.cast_pow, Nat.cast_pow, Nat.cast_pow, Nat.cast_pow, Nat.cast_ofNat,
    show (298 : ℕ) = 149 + 149 by rfl, pow_add] at l2
  have pos : (0 : ℝ) < 2 ^ 149 * 2 ^ 149 := by positivity
  show 1 / 2 ≤ value _ * value _ + value _ * value _ + value _ * value _ ∧
    value _ * value _ + value _ * value _ + value _ * value _ ≤ 2
  rw [value_sq, value_sq, value_sq, ← add_div, ← add_div, le_div_iff₀ pos, div_le_iff₀ pos]
  generalize (2 : ℝ) ^ 149 * 2 ^ 149 = N at *
  constructor
  · have : N ≤ 2 * (((unpackVertex n).nx.mag : ℝ) ^ 2 + ((unpackVertex n).ny.mag : ℝ) ^ 2 + ((unpackVertex n).nz.mag : ℝ) ^ 2) := l1
    show 1 / 2 * N ≤ ((unpackVertex n).nx.mag : ℝ) ^ 2 + ((unpackVertex n).ny.mag : ℝ) ^ 2 + ((unpackVertex n).nz.mag : ℝ) ^ 2
    linarith
  · exact l2

theorem gateBracket_ok : gateBracketVertices.all (packedOk 1) = true := by decide +kernel
theorem gateWire_ok : gateWireVertices.all (packedOk 1) = true := by decide +kernel
theorem gateWireRectangle_ok : gateWireRectangleVertices.all (packedOk 1) = true := by decide +kernel
theorem gatePlate_ok : gatePlateVertices.all (packedOk 1) = true := by decide +kernel
theorem gateLongPlate_ok : gateLongPlateVertices.all (packedOk 1) = true := by decide +kernel
theorem triggerStar_ok : triggerStarVertices.all (packedOk 1) = true := by decide +kernel
theorem triggerButton_ok : triggerButtonVertices.all (packedOk 1) = true := by decide +kernel
theorem triggerSimple_ok : triggerSimpleVertices.all (packedOk 47) = true := by decide +kernel
theorem triggerWireD_ok : triggerWireDVertices.all (packedOk 47) = true := by decide +kernel
theorem triggerInder_ok : triggerInderVertices.all (packedOk 47) = true := by decide +kernel

/-- **C96**: the tables of the program for gates and triggers are as the theorems want them. -/
theorem C96_unit_normals :
    (∀ t ∈ [meshTables.gateBracket, meshTables.gateWire, meshTables.gateWireRectangle, meshTables.gatePlate,
        meshTables.gateLongPlate, meshTables.triggerStar, meshTables.triggerButton], TableIn 1 t ∧ UnitNormals t) ∧
    (∀ t ∈ [meshTables.triggerSimple, meshTables.triggerWireD, meshTables.triggerInder],
      TableIn 47 t ∧ UnitNormals t) := by
  have key : ∀ {b : Nat} {l : List Nat} {t : List Nat}, l.all (packedOk b) = true →
      TableIn b (unpackTable l t) ∧ UnitNormals (unpackTable l t) := by
    intro b l t h
    rw [List.all_eq_true] at h
    have k : ∀ v ∈ l.map unpackVertex, InBox b v.pos ∧ InBox 1 v.normal ∧ AboutOne (point v.normal) := fun v hv => by
      obtain ⟨n, hn, rfl⟩ := List.mem_map.1 hv
      exact packedOk_spec (h n hn)
    exact ⟨fun v hv => (k v hv).1, fun v hv => (k v hv).2⟩
  have k1 : ∀ {l t : List Nat}, l.all (packedOk 1) = true → TableIn 1 (unpackTable l t) ∧ UnitNormals (unpackTable l t) :=
    fun h => by simpa using key h
  have k47 : ∀ {l t : List Nat}, l.all (packedOk 47) = true → TableIn 47 (unpackTable l t) ∧ UnitNormals (unpackTable l t) :=
    fun h => by simpa using key h
  have bs : TableIn 1 meshTables.gateBracket ∧ UnitNormals meshTables.gateBracket := k1 gateBracket_ok (t := gateBracketTris)
  have ws : TableIn 1 meshTables.gateWire ∧ UnitNormals meshTables.gateWire := k1 gateWire_ok (t := gateWireTris)
  have rs : TableIn 1 meshTables.gateWireRectangle ∧ UnitNormals meshTables.gateWireRectangle := k1 gateWireRectangle_ok (t := gateWireRectangleTris)
  have ps : TableIn 1 meshTables.gatePlate ∧ UnitNormals meshTables.gatePlate := k1 gatePlate_ok (t := gatePlateTris)
  have ls : TableIn 1 meshTables.gateLongPlate ∧ UnitNormals meshTables.gateLongPlate := k1 gateLongPlate_ok (t := gateLongPlateTris)
  have ss : TableIn 1 meshTables.triggerStar ∧ UnitNormals meshTables.triggerStar := k1 triggerStar_ok (t := triggerStarTris)
  have us : TableIn 1 meshTables.triggerButton ∧ UnitNormals meshTables.triggerButton := k1 triggerButton_ok (t := triggerButtonTris)
  have ts : TableIn 47 meshTables.triggerSimple ∧ UnitNormals meshTables.triggerSimple := k47 triggerSimple_ok (t := triggerSimpleTris)
  have ds : TableIn 47 meshTables.triggerWireD ∧ UnitNormals meshTables.triggerWireD := k47 triggerWireD_ok (t := triggerWireDTris)
  have is : TableIn 47 meshTables.triggerInder ∧ UnitNormals meshTables.triggerInder := k47 triggerInder_ok (t := triggerInderTris)
  generalize meshTables = M at *
  simp only [List.forall_mem_cons, List.not_mem_nil, false_implies, implies_true, and_true]
  exact ⟨⟨bs, ws, rs, ps, ls, ss, us⟩, ts, ds, is⟩

/-- a wire turned by a right angle, stretched and made thicker -/
def wireSample : Trigger :=
  { Trigger.default with
    shape := .WireB, rotation := 0x42b40000, scale_x := 0x40000000, scale_y := f32One, wire_thickness := some fHalf,
    is_visible := true }

example (T : CloseTrig sin cos) :
    letI := ieee sin cos pow
    ∃ m, buildTriggerMesh meshTables wireSample = some m ∧
      List.Forall₂ (fun x v =>
        Within (1 / 1000) x.pos
          (move (stretch ⟨value fHalf, value fHalf, value fHalf⟩
              (unitOf (triggerTurn .WireB (value 0x42b40000) (point v.normal))))
            (move ⟨0, 0, 0⟩ (stretch ⟨value 0x40000000, value f32One, 1⟩
              (triggerTurn .WireB (value 0x42b40000) (point v.pos))))))
        m.vertices meshTables.triggerSimple.vertices := by
  have h := C96_wire (pow := pow) meshTables (V := 47) (R := 2) (W := 1) (n := 1) T (by norm_num) (by norm_num) le_rfl
    (by norm_num) le_rfl (by norm_num) wireSample
    (by simpa using digitOk_spec (x := wireSample.rotation) (b := 360) (by decide +kernel))
    (by simpa using digitOk_spec (x := wireSample.scale_x) (b := 2) (by decide +kernel))
    (by simpa using digitOk_spec (x := wireSample.scale_y) (b := 2) (by decide +kernel))
    (by simpa using digitOk_spec (x := (wireSample.wire_thickness.getD 0)) (b := 1) (by decide +kernel))
    0 (Or.inr ⟨by decide, rfl⟩)
  obtain ⟨h1, h2⟩ := C96_unit_normals.2 _ List.mem_cons_self
  have k := h _ meshTables.triggerSimple rfl rfl h1 h2
  refine ⟨_, rfl, k.imp fun x v hxv => ?_⟩
  obtain ⟨hf, e1, e2, e3⟩ := hxv
  have le : ((3 * (47 * 2) + 19) * ((4 * (1 : ℕ) + 14) / 2 ^ 23) + 1 * ((180 * (1 : ℕ) + 512) / 2 ^ 23) : ℝ) ≤ 1 / 1000 := by
    norm_num
  exact ⟨hf, e1.trans le, e2.trans le, e3.trans le⟩

end Vpin
