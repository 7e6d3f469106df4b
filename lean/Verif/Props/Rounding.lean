import Verif.Lemmas.NearPrimitive
import Verif.Props.Placement
/-! C96: how far rounding takes the vertices of the meshes from where they should be. -/
namespace Vpin
open Rounding Geometry

variable {sin cos : F32 → F32} {pow : F32 → F32 → F32}

/-- **C96**: every operation on finite numbers gives the exact result rounded to a nearest number, as long as that result
is not too large. -/
theorem C96_operations (a b : F32) (ha : a.isFinite = true) (hb : b.isFinite = true) :
    letI := ieee sin cos pow
    (|value a + value b| ≤ 2 ^ 127 → Rounds (Arith.add a b) (value a + value b)) ∧
      (|value a - value b| ≤ 2 ^ 127 → Rounds (Arith.sub a b) (value a - value b)) ∧
      (|value a * value b| ≤ 2 ^ 127 → Rounds (Arith.mul a b) (value a * value b)) ∧
      (value b ≠ 0 → |value a / value b| ≤ 2 ^ 127 → Rounds (Arith.div a b) (value a / value b)) ∧
      (0 ≤ value a → Rounds (Arith.sqrt a) (Real.sqrt (value a))) :=
  ⟨add_rounds ha hb, sub_rounds ha hb, mul_rounds ha hb, div_rounds ha hb, sqrt_rounds ha⟩

/-! ### Meshes of a table -/

theorem follows_mesh {e : ℝ} {t : MeshTable} {f g : V3 F32 → V3 F32} {place : V3 ℝ → V3 ℝ}
    (h : ∀ v ∈ t.vertices, Within e (f v.pos) (place (point v.pos))) : Follows e (t.mesh f g) t place := by
  unfold Follows
  show List.Forall₂ _ (t.vertices.map _) t.vertices
  rw [List.forall₂_map_left_iff]
  exact List.forall₂_same.2 h

theorem follows_normals {e : ℝ} {t : MeshTable} {f g : V3 F32 → V3 F32} {place : V3 ℝ → V3 ℝ}
    (h : ∀ v ∈ t.vertices, Within e (g v.normal) (place (point v.normal))) : FollowsNormals e (t.mesh f g) t place := by
  unfold FollowsNormals
  show List.Forall₂ _ (t.vertices.map _) t.vertices
  rw [List.forall₂_map_left_iff]
  exact List.forall₂_same.2 h

section
variable (M : MeshTables) {V R : ℝ} {n : ℕ}

/-- **C96**: the vertices of a ball, and of the bulb and the socket of a light, are within two roundings of the vertex of
the table times the radius. -/
theorem C96_scaled (hV : 1 ≤ V) (hR : 1 ≤ R) (hVR : V * R ≤ 2 ^ 99) :
    letI := ieee sin cos pow
    (∀ b : Ball, AtMost R b.radius → TableIn V M.ball →
      Follows (V * R / 2 ^ 22) (buildBallMesh M b) M.ball (stretch ⟨value b.radius, value b.radius, value b.radius⟩)) ∧
    (∀ (l : Light) (bulb socket : RawMesh), AtMost R l.mesh_radius → TableIn V M.bulbLight → TableIn V M.bulbSocket →
      buildLightMeshes M l = some (some bulb, some socket) →
      Follows (V * R / 2 ^ 22) bulb M.bulbLight (stretch ⟨value l.mesh_radius, value l.mesh_radius, value l.mesh_radius⟩) ∧
      Follows (V * R / 2 ^ 22) socket M.bulbSocket
        (stretch ⟨value l.mesh_radius, value l.mesh_radius, value l.mesh_radius⟩)) := by
  have key : ∀ {r : F32} {p : V3 F32}, AtMost R r → InBox V p →
      Within (V * R / 2 ^ 22) (@scaledPoint F32 (@instOpsF32OfArith (ieee sin cos pow)) r p)
        (stretch ⟨value r, value r, value r⟩ (point p)) := by
    intro r p hr hp
    have hr' := Near.of_atMost hr hR
    have := (NearP.of_box hp hV).times (sin := sin) (cos := cos) (pow := pow) (s := ⟨value r, value r, value r⟩)
      hr' hr' hr' (by omega) (by linarith [show (2 : ℝ) ^ 99 ≤ 2 ^ 100 by norm_num])
    exact this.within (by omega) (le_of_eq (by push_cast; ring))
  refine ⟨fun b hb ht => follows_mesh fun v hv => key hb (ht v hv), fun l bulb socket hl h1 h2 h => ?_⟩
  unfold buildLightMeshes at h
  split at h
  · cases h
  · split at h
    · cases h
    · cases h
      exact ⟨follows_mesh fun v hv => key hl (h1 v hv), follows_mesh fun v hv => key hl (h2 v hv)⟩

/-- the point of a bumper, a spinner or a hit target is not far from overflow -/
theorem small_enough (h : V * R ≤ 2 ^ 90) : V * R * 2 ≤ 2 ^ 100 := by
  have : (2 : ℝ) ^ 90 * 2 ≤ 2 ^ 100 := by norm_num
  linarith

theorem turned_point (T : CloseTrig sin cos) (hV : 1 ≤ V) (hV' : V ≤ 2 ^ 90) (hn : 1 ≤ n) (hn' : n ≤ 400) {a : F32}
    {p : V3 F32} (ha : AtMost (360 * n) a) (hp : InBox V p) :
    letI := ieee sin cos pow
    NearP (4 * n + 3) (2 * V) ((Mat3.rotateZ (Ops.radians a)).multiplyVector p) (turnedBy (value a) (point p)) := by
  obtain ⟨hs, hc⟩ := degrees_near T hn ha (by omega)
  have := (NearP.of_box hp hV).turned (pow := pow) hs hc (by omega)
    (by linarith [show (2 : ℝ) ^ 90 * 2 ≤ 2 ^ 100 by norm_num])
  rw [show 0 + (4 * n + 1) + 2 = 4 * n + 3 by omega] at this
  exact this

/-- **C96**: the vertices of a spinner, of a hit target and of the parts of a bumper are close to the vertex of the table
turned, stretched and moved exactly. The error is in proportion to the size of the part, and grows with the number `n` of
full turns in its angle. -/
theorem C96_bumper (T : CloseTrig sin cos) (hV : 1 ≤ V) (hR : 1 ≤ R) (hVR : V * R ≤ 2 ^ 90) (hn : 1 ≤ n) (hn' : n ≤ 400)
    (b : Bumper) (ha : AtMost (360 * n) b.orientation) (hr : AtMost R b.radius) (hh : AtMost R b.height_scale) :
    letI := ieee sin cos pow
    let B := buildBumperMeshes M b
    let r := value b.radius
    let h := value b.height_scale
    let turn := turnedBy (value b.orientation)
    (∀ m, B.base = some m → TableIn V M.bumperBase →
      Follows (V * R * ((4 * n + 5) / 2 ^ 22)) m M.bumperBase fun p => stretch ⟨r, r, h⟩ (turn p)) ∧
    (∀ m, B.ring = some m → TableIn V M.bumperRing →
      Follows (V * R * ((4 * n + 5) / 2 ^ 22)) m M.bumperRing fun p => stretch ⟨r, r, h⟩ (turn p)) ∧
    (∀ m, B.socket = some m → TableIn V M.bumperSocket →
      Follows ((2 * (V * R) + 5) * ((4 * n + 6) / 2 ^ 23)) m M.bumperSocket fun p =>
        move ⟨0, 0, 5⟩ (stretch ⟨r, r, h⟩ (turn p))) ∧
    (∀ m, B.cap = some m → TableIn V M.bumperCap →
      Follows ((4 * (V * R) + R) * ((4 * n + 7) / 2 ^ 23)) m M.bumperCap fun p =>
        move ⟨0, 0, h⟩ (stretch ⟨2 * r, 2 * r, h⟩ (turn p))) := by
  intro B r h turn
  have hV' : V ≤ 2 ^ 90 := by nlinarith
  have hVR1 : 1 ≤ V * R := by nlinarith
  have hRV : R ≤ V * R := by nlinarith
  have big : (2 : ℝ) ^ 90 * 8 + 5 ≤ 2 ^ 100 := by norm_num
  have hr' := Near.of_atMost hr hR
  have hh' := Near.of_atMost hh hR
  have part : ∀ {p : V3 F32}, InBox V p →
      NearP (4 * n + 3 + 0 + 1) (2 * V * R) (@V3.times F32 (@instOpsF32OfArith (ieee sin cos pow))
        (@Mat3.multiplyVector F32 (@instOpsF32OfArith (ieee sin cos pow))
          (@Mat3.rotateZ F32 (@instOpsF32OfArith (ieee sin cos pow)) (ieeeMul b.orientation fRadsPerDeg)) p)
        b.radius b.radius b.height_scale) (stretch ⟨r, r, h⟩ (turn (point p))) := fun hp =>
    (turned_point (pow := pow) T hV hV' hn hn' ha hp).times (s := ⟨r, r, h⟩) hr' hr' hh' (by omega) (by nlinarith)
  have e1 : ∀ {p : V3 F32}, InBox V p → Within (V * R * ((4 * n + 5) / 2 ^ 22))
      (@bumperPoint F32 (@instOpsF32OfArith (ieee sin cos pow)) b.orientation b.radius b.height_scale p)
      (stretch ⟨r, r, h⟩ (turn (point p))) := fun hp =>
    (part hp).within (by omega) (le_of_eq (by push_cast; ring))
  refine ⟨?_, ?_, ?_, ?_⟩
  · intro m hm ht
    have hm : (if b.is_base_visible then some _ else none) = some m := hm
    split at hm
    · cases hm
      exact follows_mesh fun v hv => e1 (ht v hv)
    · cases hm
  · intro m hm ht
    have hm : (if b.is_ring_visible.getD true then some _ else none) = some m := hm
    split at hm
    · cases hm
      exact follows_mesh fun v hv => e1 (ht v hv)
    · cases hm
  · intro m hm ht
    have hm : (if b.is_socket_visible.getD true then some _ else none) = some m := hm
    split at hm
    · cases hm
      refine follows_mesh fun v hv => ?_
      have five : Near (4 * n + 3 + 0 + 1) 5 fFive 5 :=
        (Near.exact ⟨by decide +kernel, by
          rw [value_val, show F32.val fFive = 5 * 2 ^ 149 by decide +kernel, Int.cast_mul, Int.cast_pow, Int.cast_ofNat,
            Int.cast_ofNat]
          field_simp⟩ (by norm_num) (by norm_num)).mono (by omega)
      have := (part (ht v hv)).raise (sin := sin) (cos := cos) (pow := pow) five (by omega) (by linarith)
      exact this.within (by omega) (le_of_eq (by push_cast; ring))
    · cases hm
  · intro m hm ht
    have hm : (if b.is_cap_visible then some _ else none) = some m := hm
    split at hm
    · cases hm
      refine follows_mesh fun v hv => ?_
      have two : Near 0 2 fTwo 2 := Near.exact ⟨by decide +kernel, value_two⟩ (by norm_num) (by norm_num)
      have r2 := hr'.mul two (by omega) (by linarith)
      rw [mul_comm (value b.radius)] at r2
      have hh2 : Near (0 + 0 + 1) (R * 2) b.height_scale h := (hh'.mono (by omega)).widen (by linarith) (Or.inr (by linarith))
      have k1 := (turned_point (pow := pow) T hV hV' hn hn' ha (ht v hv)).times (sin := sin) (cos := cos) (pow := pow)
        (s := ⟨2 * r, 2 * r, h⟩) r2 r2 hh2
        (by omega) (by nlinarith)
      have := k1.raise (sin := sin) (cos := cos) (pow := pow) (hh'.mono (by omega)) (by omega) (by nlinarith)
      exact this.within (by omega) (le_of_eq (by push_cast; ring))
    · cases hm

/-- **C96**: the vertices of a spinner. -/
theorem C96_spinner (T : CloseTrig sin cos) (hV : 1 ≤ V) (hR : 1 ≤ R) (hVR : V * R ≤ 2 ^ 90) (hn : 1 ≤ n) (hn' : n ≤ 400)
    (s : Spinner) (ha : AtMost (360 * n) s.rotation) (hl : AtMost R s.length) :
    letI := ieee sin cos pow
    let l := value s.length
    (∀ m, (buildSpinnerMeshes M s).1 = some m → TableIn V M.spinnerBracket →
      Follows (V * R * ((4 * n + 5) / 2 ^ 22)) m M.spinnerBracket fun p =>
        stretch ⟨l, l, l⟩ (turnedBy (value s.rotation) p)) ∧
    (TableIn V M.spinnerPlate →
      Follows (V * R * ((4 * n + 5) / 2 ^ 22)) (buildSpinnerMeshes M s).2 M.spinnerPlate fun p =>
        stretch ⟨l, l, l⟩ (turnedBy (value s.rotation) p)) := by
  intro l
  have hV' : V ≤ 2 ^ 90 := by nlinarith
  have big : (2 : ℝ) ^ 90 * 8 + 5 ≤ 2 ^ 100 := by norm_num
  have hl' := Near.of_atMost hl hR
  have key : ∀ {p : V3 F32}, InBox V p → Within (V * R * ((4 * n + 5) / 2 ^ 22))
      (@spinnerPoint F32 (@instOpsF32OfArith (ieee sin cos pow)) s.rotation s.length p)
      (stretch ⟨l, l, l⟩ (turnedBy (value s.rotation) (point p))) := fun hp =>
    ((turned_point (pow := pow) T hV hV' hn hn' ha hp).times (sin := sin) (cos := cos) (pow := pow) (s := ⟨l, l, l⟩) hl'
      hl' hl' (by omega) (by nlinarith)).within (by omega) (le_of_eq (by push_cast; ring))
  refine ⟨?_, fun ht => follows_mesh fun v hv => key (ht v hv)⟩
  intro m hm ht
  have hm : (if s.show_bracket then some _ else none) = some m := hm
  split at hm
  · cases hm
    exact follows_mesh fun v hv => key (ht v hv)
  · cases hm

/-- **C96**: the vertices of a hit target. -/
theorem C96_hit_target (T : CloseTrig sin cos) (hV : 1 ≤ V) (hR : 1 ≤ R) (hVR : V * R ≤ 2 ^ 90) (hn : 1 ≤ n)
    (hn' : n ≤ 400) (h : HitTarget) (ha : AtMost (360 * n) h.rot_z) (hx : AtMost R h.size.x) (hy : AtMost R h.size.y)
    (hz : AtMost R h.size.z) (ht : TableIn V (M.hitTarget h.target_type)) :
    letI := ieee sin cos pow
    ∀ m, buildHitTargetMesh M h = some m →
      Follows (V * R * ((4 * n + 5) / 2 ^ 22)) m (M.hitTarget h.target_type) fun p =>
        turnedBy (value h.rot_z) (stretch ⟨value h.size.x, value h.size.y, value h.size.z⟩ p) := by
  intro m hm
  have hVR1 : 1 ≤ V * R := by nlinarith
  have big : (2 : ℝ) ^ 90 * 8 + 5 ≤ 2 ^ 100 := by norm_num
  unfold buildHitTargetMesh at hm
  split at hm
  · cases hm
  · unfold buildHitTargetMeshUnchecked at hm
    cases hm
    refine follows_mesh fun v hv => ?_
    obtain ⟨hs, hc⟩ := degrees_near T hn ha (by omega)
    have k1 := (NearP.of_box (ht v hv) hV).times (sin := sin) (cos := cos) (pow := pow)
      (s := ⟨value h.size.x, value h.size.y, value h.size.z⟩) (Near.of_atMost hx hR) (Near.of_atMost hy hR)
      (Near.of_atMost hz hR) (by omega) (by linarith)
    have k2 := k1.turned (pow := pow) hs hc (by omega) (by linarith)
    exact k2.within (by omega) (le_of_eq (by push_cast; ring))

/-- **C96**: the vertices of a gate. -/
theorem C96_gate (T : CloseTrig sin cos) (hV : 1 ≤ V) (hR : 1 ≤ R) (hVR : V * R ≤ 2 ^ 90) (hn : 1 ≤ n) (hn' : n ≤ 400)
    (g : Gate) (ha : AtMost (360 * n) g.rotation) (hl : AtMost R g.length) :
    letI := ieee sin cos pow
    let l := value g.length
    ∀ bracket wire, buildGateMeshes M g = some (bracket, wire) →
      (TableIn V (M.gate (g.gate_type.getD .WireW)) →
        Follows (V * ((4 * n + 4) / 2 ^ 22)) wire (M.gate (g.gate_type.getD .WireW)) (turnedBy (value g.rotation))) ∧
      (∀ m, bracket = some m → TableIn V M.gateBracket →
        Follows (V * R * ((4 * n + 5) / 2 ^ 22)) m M.gateBracket fun p =>
          stretch ⟨l, l, l⟩ (turnedBy (value g.rotation) p)) := by
  intro l bracket wire h
  have hVR1 : 1 ≤ V * R := by nlinarith
  have hV' : V ≤ 2 ^ 90 := by nlinarith
  have big : (2 : ℝ) ^ 90 * 8 + 5 ≤ 2 ^ 100 := by norm_num
  obtain ⟨hs, hc⟩ := degrees_near T hn ha (by omega)
  unfold buildGateMeshes at h
  split at h
  · cases h
  · unfold buildGateMeshesUnchecked at h
    cases h
    refine ⟨fun ht => follows_mesh fun v hv => ?_, ?_⟩
    · have k := (NearP.of_box (ht v hv) hV).row_turned (pow := pow) hs hc (by omega) (by linarith)
      exact k.within (by omega) (le_of_eq (by push_cast; ring))
    · intro m hm ht
      split at hm
      · cases hm
        refine follows_mesh fun v hv => ?_
        have k := (NearP.of_box (ht v hv) hV).turn_stretched (pow := pow) hs hc (Near.of_atMost hl hR) (by omega)
          (by linarith) hV hR
        exact k.within (by omega) (le_of_eq (by push_cast; ring))
      · cases hm

/-- an angle known up to a few units -/
theorem Rounding.Near.shift {j i : ℕ} {x : F32} {f : ℝ → ℝ} {s t : ℝ} (h : Near j 1 x (f s)) (h1 : |f t| ≤ 1)
    (hl : ∀ u v, |f u - f v| ≤ |u - v|) (hd : |s - t| ≤ i / 2 ^ 23) : Near (j + i) 1 x (f t) := by
  refine ⟨h.finite, h.size, h1, ?_⟩
  have e1 := h.error
  have e2 := (hl s t).trans hd
  have e3 := abs_add_le (value x - f s) (f s - f t)
  rw [sub_add_sub_cancel] at e3
  have g1 := one_le_grow j
  have g2 := grow_ge i
  have : grow j - 1 + (i : ℝ) / 2 ^ 23 ≤ grow (j + i) - 1 := by
    rw [grow_add]
    have h0 : (0 : ℝ) ≤ i / 2 ^ 23 := by positivity
    nlinarith
  linarith

/-- a constant of the code stands for a decimal number -/
theorem near_constant {x : F32} {N : Int} {d : ℝ} (hf : x.isFinite = true) (hv : F32.val x = N) (hd : |d| ≤ 1)
    (he : |(N : ℝ) / 2 ^ 149 - d| ≤ 1 / 2 ^ 23) : Near 1 1 x d := by
  refine ⟨hf, Or.inr le_rfl, hd, ?_⟩
  rw [value_val, hv]
  have := grow_ge 1
  push_cast at this
  linarith

/-- how large the plate of a kicker is, compared with the radius of the kicker -/
noncomputable def plateFactor : KickerType → ℝ
  | .Williams | .Gottlieb => 0.88
  | .Cup2 => 0.87
  | .Cup => 1
  | _ => 0.82

theorem plate_radius (hR : 1 ≤ R) (hR' : R ≤ 2 ^ 90) (k : Kicker) (hr : AtMost R k.radius) :
    letI := ieee sin cos pow
    Near 2 R (kickerPlateRadius k) (plateFactor k.kicker_type * value k.radius) := by
  have hr' := Near.of_atMost hr hR
  have big : (2 : ℝ) ^ 90 ≤ 2 ^ 100 := by norm_num
  have times : ∀ {c : F32} {d : ℝ}, Near 1 1 c d → Near 2 R (ieeeMul k.radius c) (d * value k.radius) := fun hc => by
    have := hr'.mul hc (by omega) (by linarith)
    rw [mul_one, mul_comm] at this
    exact this
  have p149 : (2 : ℝ) ^ 149 = 2 ^ 24 * 2 ^ 125 := by rw [← pow_add]
  have c82 : Near 1 1 f0p82 0.82 := near_constant (N := 13757317 * 2 ^ 125) (by decide +kernel) (by decide +kernel)
    (by norm_num) (by
      rw [p149, Int.cast_mul, Int.cast_pow, Int.cast_ofNat, Int.cast_ofNat, mul_div_mul_right _ _ (by positivity), abs_le]
      constructor <;> norm_num)
  have c87 : Near 1 1 f0p87 0.87 := near_constant (N := 14596178 * 2 ^ 125) (by decide +kernel) (by decide +kernel)
    (by norm_num) (by
      rw [p149, Int.cast_mul, Int.cast_pow, Int.cast_ofNat, Int.cast_ofNat, mul_div_mul_right _ _ (by positivity), abs_le]
      constructor <;> norm_num)
  have c88 : Near 1 1 f0p88 0.88 := near_constant (N := 14763950 * 2 ^ 125) (by decide +kernel) (by decide +kernel)
    (by norm_num) (by
      rw [p149, Int.cast_mul, Int.cast_pow, Int.cast_ofNat, Int.cast_ofNat, mul_div_mul_right _ _ (by positivity), abs_le]
      constructor <;> norm_num)
  unfold kickerPlateRadius plateFactor
  cases k.kicker_type
  · exact times c82
  · exact times c82
  · rw [one_mul]; exact hr'.mono (by omega)
  · exact times c82
  · exact times c88
  · exact times c88
  · exact times c87

/-- by how much the body of a kicker is raised before it is stretched -/
noncomputable def cupOffset : KickerType → ℝ
  | .Cup => -0.18
  | _ => 0

/-- the angle in degrees by which the body of a kicker is turned -/
noncomputable def bodyAngle (k : Kicker) : ℝ :=
  match k.kicker_type with
  | .Cup | .Gottlieb | .Cup2 => value k.orientation
  | .Williams => value k.orientation + 90
  | _ => 0

/-- the sine and the cosine of the angle of the body of a kicker -/
theorem kicker_angle (T : CloseTrig sin cos) (hn : 1 ≤ n) (hn' : n ≤ 200) (k : Kicker)
    (ha : AtMost (360 * n) k.orientation) :
    Near (8 * n + 5) 1 (sin (ieeeMul (@kickerBody (ieee sin cos pow) M k).2.2 fRadsPerDeg))
        (Real.sin (bodyAngle k * (Real.pi / 180))) ∧
      Near (8 * n + 5) 1 (cos (ieeeMul (@kickerBody (ieee sin cos pow) M k).2.2 fRadsPerDeg))
        (Real.cos (bodyAngle k * (Real.pi / 180))) := by
  have plain := degrees_near T hn ha (by omega)
  have plain : Near (8 * n + 5) 1 _ _ ∧ Near (8 * n + 5) 1 _ _ :=
    ⟨plain.1.mono (by omega), plain.2.mono (by omega)⟩
  have none' : AtMost (360 * n) (0 : F32) := ⟨by decide +kernel, by rw [value_zero]; simp⟩
  have none := degrees_near T hn none' (by omega)
  rw [value_zero] at none
  have none : Near (8 * n + 5) 1 _ _ ∧ Near (8 * n + 5) 1 _ _ := ⟨none.1.mono (by omega), none.2.mono (by omega)⟩
  unfold kickerBody bodyAngle
  cases k.kicker_type
  · exact none
  · exact none
  · exact plain
  · exact none
  · have v90 : value f90 = 90 := by
      rw [value_val, show F32.val f90 = 90 * 2 ^ 149 by decide +kernel, Int.cast_mul, Int.cast_pow, Int.cast_ofNat,
        Int.cast_ofNat]
      field_simp
    have hnR : (1 : ℝ) ≤ n := by exact_mod_cast hn
    have hnR' : (n : ℝ) ≤ 200 := by exact_mod_cast hn'
    have hb : |value k.orientation + 90| ≤ 360 * n + 90 :=
      (abs_add_le _ _).trans (by rw [abs_of_pos (by norm_num : (0 : ℝ) < 90)]; linarith [ha.2])
    have hq := add_rounds ha.1 (b := f90) (by decide +kernel) (by
      rw [v90]
      exact hb.trans (by linarith [show (100000 : ℝ) ≤ 2 ^ 127 by norm_num]))
    rw [v90] at hq
    have h1 := hq.2.1
    have tiny : (1 : ℝ) / 2 ^ 150 ≤ 1 / 2 ^ 60 := by norm_num
    have h2 : |value k.orientation + 90| / 2 ^ 24 ≤ (360 * n + 90) / 2 ^ 24 := by gcongr
    have h3 : |value (ieeeAdd k.orientation f90)| ≤ 360 * (n + 1 : ℕ) := by
      have := abs_add_le (value (ieeeAdd k.orientation f90) - (value k.orientation + 90)) (value k.orientation + 90)
      rw [sub_add_cancel] at this
      have h4 : (360 * (n : ℝ) + 90) / 2 ^ 24 ≤ 1 := by
        rw [div_le_one (by positivity)]; norm_num; linarith
      have h5 : (1 : ℝ) / 2 ^ 60 ≤ 1 := by norm_num
      push_cast
      linarith
    have base := degrees_near T (n := n + 1) (by omega) ⟨hq.1, h3⟩ (by omega)
    have hpi := Real.pi_lt_d4
    have hpi0 := Real.pi_pos
    have hd : |value (ieeeAdd k.orientation f90) * (Real.pi / 180) - (value k.orientation + 90) * (Real.pi / 180)| ≤
        ((4 * n : ℕ) : ℝ) / 2 ^ 23 := by
      rw [← sub_mul, abs_mul, abs_of_pos (by positivity : 0 < Real.pi / 180)]
      have h6 : |value (ieeeAdd k.orientation f90) - (value k.orientation + 90)| ≤
          (360 * n + 90) / 2 ^ 24 + 1 / 2 ^ 60 := by linarith
      calc _ ≤ ((360 * (n : ℝ) + 90) / 2 ^ 24 + 1 / 2 ^ 60) * (3.1416 / 180) :=
            mul_le_mul h6 (by linarith) (by positivity) (by positivity)
        _ ≤ _ := by
          push_cast
          have h7 : (90 / 2 ^ 24 + 1 / 2 ^ 60) * (3.1416 / 180) ≤ ((0.79 : ℝ)) / 2 ^ 23 := by norm_num
          have h8 : (360 : ℝ) / 2 ^ 24 * (3.1416 / 180) ≤ 3.1417 / 2 ^ 23 := by norm_num
          have h9 : (360 : ℝ) / 2 ^ 24 * (3.1416 / 180) * n ≤ 3.1417 / 2 ^ 23 * n :=
            mul_le_mul_of_nonneg_right h8 (by linarith)
          have h10 : (3.1417 : ℝ) / 2 ^ 23 * n + 0.79 / 2 ^ 23 ≤ 4 * n / 2 ^ 23 := by
            rw [div_mul_eq_mul_div, ← add_div]
            exact div_le_div_of_nonneg_right (by linarith) (by positivity)
          linarith
    have e : 4 * (n + 1) + 1 + 4 * n = 8 * n + 5 := by omega
    rw [← e]
    exact ⟨base.1.shift (Real.abs_sin_le_one _) Real.abs_sin_sub_sin_le hd,
      base.2.shift (Real.abs_cos_le_one _) Real.abs_cos_sub_cos_le hd⟩
  · exact plain
  · exact plain

/-- **C96**: the vertices of a kicker, with the angle, the offset and the factor of its type. -/
theorem C96_kicker (T : CloseTrig sin cos) (hV : 1 ≤ V) (hR : 1 ≤ R) (hVR : V * R ≤ 2 ^ 90) (hn : 1 ≤ n) (hn' : n ≤ 200)
    (k : Kicker) (ha : AtMost (360 * n) k.orientation) (hr : AtMost R k.radius) :
    letI := ieee sin cos pow
    let r := value k.radius
    let c := plateFactor k.kicker_type * r
    (∀ m, (buildKickerMeshes M k).1 = some m → TableIn V M.kickerPlate →
      Follows (V * R / 2 ^ 21) m M.kickerPlate (stretch ⟨c, c, c⟩)) ∧
    (∀ m, (buildKickerMeshes M k).2 = some m → TableIn V (kickerBody M k).1 →
      Follows ((V + 1) * R * ((8 * n + 11) / 2 ^ 22)) m (kickerBody M k).1 fun p =>
        stretch ⟨r, r, r⟩ (turnedBy (bodyAngle k) (move ⟨0, 0, cupOffset k.kicker_type⟩ p))) := by
  intro r c
  have hV' : V ≤ 2 ^ 90 := by nlinarith
  have hR' : R ≤ 2 ^ 90 := by nlinarith
  have hVR1 : 1 ≤ V * R := by nlinarith
  have hRV : R ≤ V * R := by nlinarith
  have hVV : V ≤ V * R := by nlinarith
  have big : (2 : ℝ) ^ 90 * 8 + 5 ≤ 2 ^ 100 := by norm_num
  have hr' := Near.of_atMost hr hR
  refine ⟨?_, ?_⟩
  · intro m hm ht
    unfold buildKickerMeshes at hm
    split at hm
    · cases hm
    · cases hm
      have hp := plate_radius (sin := sin) (cos := cos) (pow := pow) hR hR' k hr
      have : Follows (V * R / 2 ^ 21) (@MeshTable.mesh M.kickerPlate
          (@scaledPoint F32 (@instOpsF32OfArith (ieee sin cos pow)) (@kickerPlateRadius (ieee sin cos pow) k)) id)
          M.kickerPlate (stretch ⟨c, c, c⟩) := by
        refine follows_mesh fun v hv => ?_
        have k1 := (NearP.of_box (ht v hv) hV).times (sin := sin) (cos := cos) (pow := pow) (s := ⟨c, c, c⟩) hp hp hp
          (by omega) (by linarith)
        exact k1.within (by omega) (le_of_eq (by push_cast; ring))
      unfold Follows at this ⊢
      show List.Forall₂ _ ((MeshTable.mesh _ _ _).vertices.map _) _
      rw [List.forall₂_map_left_iff]
      exact this
  · intro m hm ht
    unfold buildKickerMeshes at hm
    split at hm
    · cases hm
    · cases hm
      have ang := kicker_angle (pow := pow) M T hn hn' k ha
      -- the offset
      have off : Near 1 1 (@kickerBody (ieee sin cos pow) M k).2.1 (cupOffset k.kicker_type) := by
        have zero : Near 1 1 0 0 := (Near.zero.mono (by omega)).widen (by norm_num) (Or.inr le_rfl)
        unfold kickerBody cupOffset
        cases k.kicker_type
        · exact zero
        · exact zero
        · have p149 : (2 : ℝ) ^ 149 = 2 ^ 26 * 2 ^ 123 := by rw [← pow_add]
          exact near_constant (x := fm0p18) (N := -12079596 * 2 ^ 123) (by decide +kernel) (by decide +kernel) (by norm_num [abs_le]) (by
            rw [p149, Int.cast_mul, Int.cast_pow, Int.cast_neg, Int.cast_ofNat, Int.cast_ofNat,
              mul_div_mul_right _ _ (by positivity), abs_le]
            constructor <;> norm_num)
        · exact zero
        · exact zero
        · exact zero
        · exact zero
      refine follows_mesh fun v hv => ?_
      have k1 := ((NearP.of_box (ht v hv) hV).mono (Nat.zero_le 1)).raise (sin := sin) (cos := cos) (pow := pow) off (by omega)
        (by linarith)
      have k2 := k1.row_turned (pow := pow) ang.1 ang.2 (by omega) (by linarith)
      have k3 := k2.times (sin := sin) (cos := cos) (pow := pow) (s := ⟨r, r, r⟩) hr' hr' hr' (by omega) (by nlinarith)
      exact k3.within (by omega) (le_of_eq (by push_cast; ring))

/-- **C96**: the vertices of a primitive, from its position, its size, its six angles and its three translations. -/
theorem C96_primitive (T : CloseTrig sin cos) (hn : 1 ≤ n) (hn' : n ≤ 400) {S D P : ℝ} (hS : 1 ≤ S) (hV : 1 ≤ V)
    (hD : 1 ≤ D) (hP : 1 ≤ P) (hT : 3 * (S * V) + 2 * D + P ≤ 2 ^ 60) (p : Primitive) (v : Vertex)
    (hp : InBox P ⟨p.position.x, p.position.y, p.position.z⟩) (hs : InBox S ⟨p.size.x, p.size.y, p.size.z⟩)
    (hv : InBox V v.pos) (k0 : AtMost (360 * n) p.rot_and_tra0) (k1 : AtMost (360 * n) p.rot_and_tra1)
    (k2 : AtMost (360 * n) p.rot_and_tra2) (k3 : AtMost D p.rot_and_tra3) (k4 : AtMost D p.rot_and_tra4)
    (k5 : AtMost D p.rot_and_tra5) (k6 : AtMost (360 * n) p.rot_and_tra6) (k7 : AtMost (360 * n) p.rot_and_tra7)
    (k8 : AtMost (360 * n) p.rot_and_tra8) :
    letI := ieee sin cos pow
    Within ((3 * (S * V) + 2 * D + P) * ((188 * n + 129) / 2 ^ 23)) (primitiveVertex p.worldMatrix v).pos
      (move ⟨value p.position.x, value p.position.y, value p.position.z⟩
        (turns Real.sin Real.cos (fun d => d * (Real.pi / 180)) (value p.rot_and_tra0) (value p.rot_and_tra1)
          (value p.rot_and_tra2) (value p.rot_and_tra6) (value p.rot_and_tra7) (value p.rot_and_tra8)
          (move ⟨value p.rot_and_tra3, value p.rot_and_tra4, value p.rot_and_tra5⟩
            (stretch ⟨value p.size.x, value p.size.y, value p.size.z⟩ (point v.pos))))) := by
  have h := primitive_near (pow := pow) T hn hn' hS hV hD hP hT hp hs hv k0 k1 k2 k6 k7 k8 k3 k4 k5
  have e := (@C73_primitive (ieee sin cos pow) p v).1
  show Within _ (V3.mk _ _ _) _
  rw [← e]
  exact h

end
end Vpin
