import Verif.Props.Rounding
/-! C96, continued: the normals, round triggers and decals, and cases that meet the hypotheses. -/
namespace Vpin
open Rounding Geometry

variable {sin cos : F32 → F32} {pow : F32 → F32 → F32}

section
variable (M : MeshTables) {V R : ℝ} {n : ℕ}

/-- every normal of a table is a vector with coordinates of at most one -/
def Rounding.NormalsIn (t : MeshTable) : Prop := ∀ v ∈ t.vertices, InBox 1 v.normal

theorem turned_normals (T : CloseTrig sin cos) (hn : 1 ≤ n) (hn' : n ≤ 400) {angle : F32} (ha : AtMost (360 * n) angle)
    {t : MeshTable} (ht : NormalsIn t) {f : V3 F32 → V3 F32} :
    letI := ieee sin cos pow
    FollowsNormals ((4 * n + 4) / 2 ^ 22) (t.mesh f (turnedNormal angle)) t (turnedBy (value angle)) := by
  obtain ⟨hs, hc⟩ := degrees_near T hn ha (by omega)
  refine follows_normals fun v hv => ?_
  have k := (NearP.of_box (ht v hv) le_rfl).turned (pow := pow) hs hc (by omega) (by norm_num)
  exact k.within (by omega) (le_of_eq (by push_cast; ring))

theorem of_if {c : Prop} [Decidable c] {m x : RawMesh} {P : RawMesh → Prop} (h : (if c then some x else none) = some m)
    (hx : P x) : P m := by
  split at h
  · cases h; exact hx
  · cases h

/-- **C96**: the normals of bumpers, spinners, hit targets and the bodies of kickers are turned with the vertices. Those of
balls, bulbs and the plates of kickers are those of the table. -/
theorem C96_normals (T : CloseTrig sin cos) (hn : 1 ≤ n) (hn' : n ≤ 200) :
    letI := ieee sin cos pow
    (∀ b : Bumper, AtMost (360 * n) b.orientation →
      let turn := turnedBy (value b.orientation)
      let e : ℝ := (4 * n + 4) / 2 ^ 22
      (∀ m, (buildBumperMeshes M b).base = some m → NormalsIn M.bumperBase → FollowsNormals e m M.bumperBase turn) ∧
      (∀ m, (buildBumperMeshes M b).socket = some m → NormalsIn M.bumperSocket →
        FollowsNormals e m M.bumperSocket turn) ∧
      (∀ m, (buildBumperMeshes M b).ring = some m → NormalsIn M.bumperRing → FollowsNormals e m M.bumperRing turn) ∧
      (∀ m, (buildBumperMeshes M b).cap = some m → NormalsIn M.bumperCap → FollowsNormals e m M.bumperCap turn)) ∧
    (∀ s : Spinner, AtMost (360 * n) s.rotation →
      (∀ m, (buildSpinnerMeshes M s).1 = some m → NormalsIn M.spinnerBracket →
        FollowsNormals ((4 * n + 4) / 2 ^ 22) m M.spinnerBracket (turnedBy (value s.rotation))) ∧
      (NormalsIn M.spinnerPlate → FollowsNormals ((4 * n + 4) / 2 ^ 22) (buildSpinnerMeshes M s).2 M.spinnerPlate
        (turnedBy (value s.rotation)))) ∧
    (∀ (h : HitTarget) (m : RawMesh), AtMost (360 * n) h.rot_z → buildHitTargetMesh M h = some m →
      NormalsIn (M.hitTarget h.target_type) →
      FollowsNormals ((4 * n + 4) / 2 ^ 22) m (M.hitTarget h.target_type) (turnedBy (value h.rot_z))) ∧
    (∀ (k : Kicker) (m : RawMesh), AtMost (360 * n) k.orientation → (buildKickerMeshes M k).2 = some m →
      NormalsIn (kickerBody M k).1 →
      FollowsNormals ((8 * n + 8) / 2 ^ 22) m (kickerBody M k).1 (turnedBy (bodyAngle k))) := by
  refine ⟨?_, fun s ha => ⟨?_, ?_⟩, fun h m ha hm ht => ?_, fun k m ha hm ht => ?_⟩
  · intro b ha turn e
    refine ⟨?_, ?_, ?_, ?_⟩ <;>
      exact fun m hm ht => of_if (P := fun m => FollowsNormals e m _ turn) hm (turned_normals T hn (by omega) ha ht)
  · exact fun m hm ht => of_if (P := fun m => FollowsNormals _ m _ _) hm (turned_normals T hn (by omega) ha ht)
  · exact fun ht => turned_normals T hn (by omega) ha ht
  · unfold buildHitTargetMesh at hm
    split at hm
    · cases hm
    · unfold buildHitTargetMeshUnchecked at hm
      cases hm
      exact turned_normals T hn (by omega) ha ht
  · unfold buildKickerMeshes at hm
    split at hm
    · cases hm
    · cases hm
      have ang := kicker_angle (pow := pow) M T hn hn' k ha
      refine follows_normals fun v hv => ?_
      have k1 := (NearP.of_box (ht v hv) le_rfl).row_normal (pow := pow) ang.1 ang.2 (by omega) (by norm_num)
      exact k1.within (by omega) (le_of_eq (by push_cast; ring))

theorem value_five : value fFive = 5 := by
  rw [value_val, show F32.val fFive = 5 * 2 ^ 149 by decide +kernel]
  rw [Int.cast_mul, Int.cast_pow, Int.cast_ofNat, Int.cast_ofNat]
  field_simp

/-- **C96**: the vertices of a round trigger: a button is 5 units higher than a star. -/
theorem C96_trigger (T : CloseTrig sin cos) (hV : 1 ≤ V) (hR : 1 ≤ R) (hVR : V * R ≤ 2 ^ 90) (hn : 1 ≤ n) (hn' : n ≤ 400)
    (t : Trigger) (ha : AtMost (360 * n) t.rotation) (hr : AtMost R t.radius) (z : ℝ)
    (hz : t.shape = .Star ∧ z = 0 ∨ t.shape = .Button ∧ z = 5) :
    letI := ieee sin cos pow
    ∀ (m : RawMesh) (table : MeshTable), buildTriggerMesh M t = some m → M.trigger t.shape = some table →
      TableIn V table →
      Follows ((2 * (V * R) + 5) * ((4 * n + 6) / 2 ^ 23)) m table fun p =>
        move ⟨0, 0, z⟩ (stretch ⟨value t.radius, value t.radius, value t.radius⟩ (turnedBy (value t.rotation) p)) := by
  intro m table hm htab ht
  have hV' : V ≤ 2 ^ 90 := by nlinarith
  have hVR1 : 1 ≤ V * R := by nlinarith
  have big : (2 : ℝ) ^ 90 * 8 + 5 ≤ 2 ^ 100 := by norm_num
  have hr' := Near.of_atMost hr hR
  obtain ⟨hs, hc⟩ := degrees_near T hn ha (by omega)
  unfold buildTriggerMesh at hm
  split at hm
  · cases hm
  rw [htab] at hm
  cases hm
  unfold Follows
  rw [List.forall₂_map_left_iff]
  refine List.forall₂_same.2 fun v hv => ?_
  have k1 := ((NearP.of_box (ht v hv) hV).row_turned (pow := pow) hs hc (by omega) (by linarith)).times (sin := sin)
    (cos := cos) (pow := pow) (s := ⟨value t.radius, value t.radius, value t.radius⟩) hr' hr' hr' (by omega) (by nlinarith)
  have k2 : ∀ {o : F32}, Near 0 5 o z → _ := fun ho =>
    (k1.raise (sin := sin) (cos := cos) (pow := pow) (ho.mono (Nat.zero_le _)) (by omega) (by nlinarith)).within
      (by omega) (e := (2 * (V * R) + 5) * ((4 * n + 6) / 2 ^ 23)) (le_of_eq (by push_cast; ring))
  rcases hz with ⟨h1, rfl⟩ | ⟨h1, rfl⟩
  · have := k2 (Near.exact exact_zero' (by norm_num) (by norm_num))
    unfold triggerVertex
    rw [h1]
    exact this
  · have := k2 (Near.exact ⟨by decide +kernel, value_five⟩ (by norm_num) (by norm_num))
    unfold triggerVertex
    rw [h1]
    exact this

/-- **C96**: the four corners of a decal are close to those of a rectangle of its width and height, turned by its
rotation. -/
theorem C96_decal (T : CloseTrig sin cos) (hR : 1 ≤ R) (hR' : R ≤ 2 ^ 90) (hn : 1 ≤ n) (hn' : n ≤ 400)
    (d : Decal) (ha : AtMost (360 * n) d.rotation) (hw : AtMost R d.width) (hh : AtMost R d.height) (m : RawMesh)
    (hm : letI := ieee sin cos pow; buildDecalMesh d = some m) :
    let w := value d.width / 2
    let h := value d.height / 2
    List.Forall₂ (fun v q => Within (R * ((4 * n + 6) / 2 ^ 22)) v.pos (turnedBy (value d.rotation) q)) m.vertices
      [⟨-w, -h, 0⟩, ⟨w, -h, 0⟩, ⟨-w, h, 0⟩, ⟨w, h, 0⟩] := by
  intro w h
  obtain ⟨hs, hc⟩ := degrees_near T hn ha (by omega)
  have big : (2 : ℝ) ^ 90 * 2 ≤ 2 ^ 100 := by norm_num
  have vhalf : value fHalf = 1 / 2 := by
    rw [value_val, show F32.val fHalf = 2 ^ 148 by decide +kernel, Int.cast_pow, Int.cast_ofNat,
      show (2 : ℝ) ^ 149 = 2 ^ 148 * 2 by rw [← pow_succ]]
    field_simp
  have half : ∀ {x : F32}, AtMost R x → Near 1 R (ieeeMul x fHalf) (value x / 2) := fun hx => by
    have := (Near.of_atMost hx hR).mul (Near.exact (m := 1) ⟨by decide +kernel, vhalf⟩ (by norm_num [abs_le]) le_rfl)
      (by omega) (by linarith)
    rw [mul_one, mul_one_div] at this
    exact this
  have hw' := half hw
  have hh' := (half hh).add_zero Near.zero (by omega) (by linarith)
  rw [add_zero] at hh'
  have mul : ∀ {x y : F32} {r s : ℝ}, Near (4 * n + 1) 1 x r → Near 1 R y s → Near (4 * n + 3) R (ieeeMul x y) (r * s) :=
    fun hx hy => by
      have := hx.mul hy (by omega) (by linarith)
      rw [one_mul] at this
      exact this
  have put : ∀ {x y : F32} {r s : ℝ}, Near (4 * n + 4) (R + R) x r → Near (4 * n + 4) (R + R) y s →
      NearP (4 * n + 4) (R + R) ⟨x, y, 0⟩ ⟨r, s, 0⟩ := fun hx hy =>
    ⟨hx, hy, (Near.exact exact_zero' (by rw [abs_zero]; linarith) (by linarith)).mono (Nat.zero_le _)⟩
  have add : ∀ {x y : F32} {r s : ℝ}, Near (4 * n + 3) R x r → Near (4 * n + 3) R y s →
      Near (4 * n + 4) (R + R) (ieeeAdd x y) (r + s) := fun hx hy => hx.add hy (by omega) (by linarith)
  have sub : ∀ {x y : F32} {r s : ℝ}, Near (4 * n + 3) R x r → Near (4 * n + 3) R y s →
      Near (4 * n + 4) (R + R) (ieeeAdd x y.neg) (r - s) := fun hx hy => hx.sub hy (by omega) (by linarith)
  have done : ∀ {p : V3 F32} {q : V3 ℝ}, NearP (4 * n + 4) (R + R) p q → Within (R * ((4 * n + 6) / 2 ^ 22)) p q :=
    fun hp => hp.within (by omega) (by
      have : (0 : ℝ) ≤ R := by linarith
      push_cast
      rw [show R * ((4 * (n : ℝ) + 6) / 2 ^ 22) = (R + R) * ((4 * n + 6) / 2 ^ 23) by ring]
      exact mul_le_mul_of_nonneg_left (div_le_div_of_nonneg_right (by linarith) (by positivity)) (by linarith))
  have spot : ∀ {X Y : F32} {r s x y : ℝ}, Near (4 * n + 4) (R + R) X r → Near (4 * n + 4) (R + R) Y s →
      r = Real.cos (value d.rotation * (Real.pi / 180)) * x - Real.sin (value d.rotation * (Real.pi / 180)) * y →
      s = Real.sin (value d.rotation * (Real.pi / 180)) * x + Real.cos (value d.rotation * (Real.pi / 180)) * y →
      Within (R * ((4 * n + 6) / 2 ^ 22)) ⟨X, Y, 0⟩ (turnedBy (value d.rotation) ⟨x, y, 0⟩) := by
    rintro X Y r s x y hx hy rfl rfl
    exact done (put hx hy)
  unfold buildDecalMesh at hm
  split at hm
  · cases hm
  split at hm
  · cases hm
  split at hm
  · cases hm
  cases hm
  refine .cons ?_ (.cons ?_ (.cons ?_ (.cons ?_ .nil)))
  · exact spot (sub (mul hs hh') (mul hc hw')) (sub (mul hc.neg hh') (mul hs hw')) (by ring) (by ring)
  · exact spot (add (mul hs hh') (mul hc hw')) (add (mul hc.neg hh') (mul hs hw')) (by ring) (by ring)
  · exact spot (sub (mul hs.neg hh') (mul hc hw')) (sub (mul hc hh') (mul hs hw')) (by ring) (by ring)
  · exact spot (add (mul hs.neg hh') (mul hc hw')) (add (mul hc hh') (mul hs hw')) (by ring) (by ring)

end

/-! ### Cases that meet the hypotheses -/

/-- every number between -1 and 1 has a single precision number next to it -/
theorem exists_close (r : ℝ) (hr : |r| ≤ 1) : ∃ x : F32, x.isFinite = true ∧ |value x - r| ≤ 1 / 2 ^ 23 := by
  have key : ∀ s : ℝ, 0 ≤ s → s ≤ 1 → ∃ x : F32, x.isFinite = true ∧ |value x - s| ≤ 1 / 2 ^ 23 := by
    intro s h0 h1
    have hf := Nat.floor_le (a := s * 2 ^ 30) (by positivity)
    have hl := Nat.lt_floor_add_one (s * 2 ^ 30)
    generalize ⌊s * 2 ^ 30⌋₊ = N at hf hl
    have a1 : (N : ℝ) / (2 ^ 30 : ℕ) ≤ s := by
      rw [div_le_iff₀ (by positivity)]; push_cast; norm_num at hf ⊢; linarith
    have a2 : s - 1 / 2 ^ 30 ≤ (N : ℝ) / (2 ^ 30 : ℕ) := by
      push_cast; rw [le_div_iff₀ (by positivity), sub_mul]; norm_num at hl ⊢; linarith
    have h := frac_rounds (n := N) (d := 2 ^ 30) (by norm_num) (a1.trans (h1.trans (by norm_num)))
    refine ⟨_, h.1, ?_⟩
    have h2 := h.2.1
    have nn : (0 : ℝ) ≤ (N : ℝ) / (2 ^ 30 : ℕ) := by positivity
    rw [abs_of_nonneg nn] at h2
    have h3 : (N : ℝ) / (2 ^ 30 : ℕ) / 2 ^ 24 ≤ 1 / 2 ^ 24 := by gcongr; linarith
    have h4 : (1 : ℝ) / 2 ^ 24 + 1 / 2 ^ 150 + 1 / 2 ^ 30 ≤ 1 / 2 ^ 23 := by norm_num
    have h5 := abs_sub_le (value (f32OfFrac N (2 ^ 30))) ((N : ℝ) / (2 ^ 30 : ℕ)) s
    have h6 : |(N : ℝ) / (2 ^ 30 : ℕ) - s| ≤ 1 / 2 ^ 30 := by rw [abs_le]; constructor <;> linarith
    linarith
  rcases le_total 0 r with h | h
  · exact key r h (le_of_abs_le hr)
  · obtain ⟨x, h1, h2⟩ := key (-r) (by linarith) (by linarith [neg_abs_le r])
    exact ⟨x.neg, by rw [neg_finite]; exact h1, by
      rw [value_neg, ← abs_neg]; rw [show -(-value x - r) = value x - -r by ring]; exact h2⟩

/-- there are a sine and a cosine as the theorems want them -/
example : ∃ sin cos : F32 → F32, CloseTrig sin cos :=
  ⟨fun x => Classical.choose (exists_close _ (Real.abs_sin_le_one (value x))),
    fun x => Classical.choose (exists_close _ (Real.abs_cos_le_one (value x))),
    ⟨fun x _ => Classical.choose_spec (exists_close _ (Real.abs_sin_le_one (value x))),
      fun x _ => Classical.choose_spec (exists_close _ (Real.abs_cos_le_one (value x)))⟩⟩

end Vpin
