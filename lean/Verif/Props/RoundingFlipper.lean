import Verif.Lemmas.NearPoint
import Verif.Spec.RoundingFlipper
import Verif.Props.FlipperShape
import Verif.Props.RoundingFlat
/-
C96: the rounding of flippers.
-/
namespace Vpin
open Rounding Geometry Scene

section
variable {sin cos : F32 → F32} {pow : F32 → F32 → F32} {V a b : ℝ} {n : ℕ}

/-! ### Sizes of calculated numbers -/

theorem Rounding.Near.atMost {k : ℕ} {m : ℝ} {x : F32} {r : ℝ} (h : Near k m x r) (hk : k ≤ 2000) : AtMost (2 * m) x :=
  ⟨h.finite, h.value_le.trans (by have := grow_le_two hk; have := h.nonneg; nlinarith)⟩

theorem atMost_add {x y : F32} (hx : AtMost a x) (hy : AtMost b y) (ha : 1 ≤ a) (hb : 1 ≤ b) (h : a + b ≤ 2 ^ 100) :
    AtMost (2 * (a + b)) (ieeeAdd x y) :=
  ((Near.of_atMost hx ha).add (Near.of_atMost hy hb) (by omega) h).atMost (by omega)

theorem atMost_neg {x : F32} (hx : AtMost a x) : AtMost a x.neg :=
  ⟨by rw [neg_finite]; exact hx.1, by rw [value_neg, abs_neg]; exact hx.2⟩

theorem atMost_mul {x y : F32} (hx : AtMost a x) (hy : AtMost b y) (ha : 1 ≤ a) (hb : 1 ≤ b) (h : a * b ≤ 2 ^ 100) :
    AtMost (2 * (a * b)) (ieeeMul x y) :=
  ((Near.of_atMost hx ha).mul (Near.of_atMost hy hb) (by omega) h).atMost (by omega)

theorem atMost_mono {x : F32} (hx : AtMost a x) (h : a ≤ b) : AtMost b x := ⟨hx.1, hx.2.trans h⟩

theorem small_const {x : F32} (m : ℕ) (h : digitOk m x.toNat = true) : AtMost m x := digitOk_spec h

/-! ### NaN -/

theorem signed_not_nan (s : Bool) (p q : Nat) : (f32Signed s p q).isNaN = false := by
  have h : (f32OfFrac p q).toNat ≤ 0x7f800000 := by
    rw [f32OfFrac_toNat]
    exact roundBits_le
  unfold f32Signed F32.isNaN
  split
  · rw [neg_mod, Nat.mod_eq_of_lt (by omega)]
    simpa using h
  · rw [Nat.mod_eq_of_lt (by omega)]
    simpa using h

theorem add_not_nan {x y : F32} (hx : x.isNaN = false) (hy : y.isFinite = true) : (ieeeAdd x y).isNaN = false := by
  obtain ⟨h1, h2⟩ := finite_parts hy
  unfold ieeeAdd
  simp only [hx, h1, h2, Bool.or_self, Bool.false_eq_true, if_false, Bool.false_and]
  split
  · exact hx
  · split
    · split <;> decide +kernel
    · exact signed_not_nan _ _ _

theorem close_not_nan {x y : F32} (h : closeTo x y = true) : x.isNaN = false := by
  by_contra hx
  rw [Bool.not_eq_false] at hx
  have e : closeTo x y = ieeeLt (F32.abs fNaN) f1em4 := by
    unfold closeTo ieeeAdd
    rw [hx]; rfl
  rw [e, show ieeeLt (F32.abs fNaN) f1em4 = false by decide +kernel] at h
  cases h

theorem div_not_nan {x y : F32} (hx : x.isFinite = true) (hy : y.isFinite = true) (h0 : value y ≠ 0) :
    (ieeeDiv x y).isNaN = false := by
  obtain ⟨h1, h2⟩ := finite_parts hx
  obtain ⟨h3, h4⟩ := finite_parts hy
  have hb0 : y.mag ≠ 0 := by
    intro h; apply h0; unfold value; rw [h]; simp
  unfold ieeeDiv
  simp only [h1, h2, h3, h4, Bool.or_self, Bool.false_eq_true, if_false, hb0]
  exact signed_not_nan _ _ _

/-! ### The angle at the round ends -/

theorem sameSign_small {mid x : F32} (h : AtMost 4 x) : AtMost 22 (@sameSign (ieee sin cos pow) mid x) := by
  have t : AtMost 7 (ieeeMul fPi fTwo) := by simpa using small_const 7 (x := ieeeMul fPi fTwo) (by decide +kernel)
  have h1 : AtMost 22 (ieeeAdd x (ieeeMul fPi fTwo).neg) := by
    have := atMost_add h (atMost_neg t) (by norm_num) (by norm_num) (by norm_num)
    norm_num at this; exact this
  have h2 : AtMost 22 (ieeeAdd x (ieeeMul fPi fTwo)) := by
    have := atMost_add h t (by norm_num) (by norm_num) (by norm_num)
    norm_num at this; exact this
  have h3 : AtMost 22 x := atMost_mono h (by norm_num)
  unfold sameSign
  split <;> split
  · exact h1
  · exact h3
  · exact h2
  · exact h3

theorem sgn_small (x : F32) : AtMost 1 (@sgn (ieee sin cos pow) x) := by
  unfold sgn
  split
  · simpa using small_const 1 (x := f32One) (by decide +kernel)
  · split
    · simpa using atMost_neg (small_const 1 (x := f32One) (by decide +kernel))
    · simpa using small_const 1 (x := 0) (by decide +kernel)

theorem fixed_finite {mid scale x : F32} (hm : AtMost 2 mid) (hs : AtMost 4 scale) (h : AtMost 22 x) :
    letI := ieee sin cos pow
    (fixedAngle mid scale (sgn mid) x).isFinite = true := by
  have h1 := atMost_add h (atMost_neg hm) (by norm_num) (by norm_num) (by norm_num)
  have h2 := atMost_mul h1 hs (by norm_num) (by norm_num) (by norm_num)
  have h3 := atMost_mul h2 (sgn_small (sin := sin) (cos := cos) (pow := pow) mid) (by norm_num) (by norm_num) (by norm_num)
  exact (atMost_add h (atMost_neg h3) (by norm_num) (by norm_num) (by norm_num)).1

theorem clamp_small {x : F32} (h : x.isNaN = false) : AtMost 1 (@clampOne (ieee sin cos pow) x) := by
  have one : AtMost 1 f32One := by simpa using small_const 1 (x := f32One) (by decide +kernel)
  unfold clampOne
  split
  · exact atMost_neg one
  · next h1 =>
    split
    · exact one
    · next h2 =>
      have h1 : ieeeLt x f32One.neg = false := Bool.eq_false_iff.2 h1
      have h2 : ieeeLt f32One x = false := Bool.eq_false_iff.2 h2
      have hi : x.isInf = false := by
        by_contra hi
        rw [Bool.not_eq_false] at hi
        unfold ieeeLt at h1 h2
        rw [h, hi, show f32One.isNaN = false by decide +kernel, show f32One.isInf = false by decide +kernel] at h2
        rw [h, hi, show f32One.neg.isNaN = false by decide +kernel, show f32One.neg.isInf = false by decide +kernel] at h1
        simp at h1 h2
        rw [h1] at h2
        cases h2
      have hf : x.isFinite = true := by
        unfold F32.isNaN at h
        unfold F32.isInf at hi
        unfold F32.isFinite
        have h := of_decide_eq_false h
        have hi : x.toNat % 0x80000000 ≠ 0x7f800000 := by simpa using hi
        exact decide_eq_true (by omega)
      have v1 := value_le_of hf one.1 h2
      have v2 := value_le_of (atMost_neg one).1 hf h1
      rw [value_neg] at v2
      rw [exact_one'.2] at v1 v2
      exact ⟨hf, abs_le.2 ⟨v2, v1⟩⟩

theorem scale_small (A : ItemFns) (K : SaneAngles A) (f : Flipper) (hV : 1 ≤ V) (hV' : V ≤ 2 ^ 90)
    (hb : AtMost V f.base_radius) (he : AtMost V f.end_radius) (hl : AtMost V f.flipper_radius_max)
    (h0 : value f.flipper_radius_max ≠ 0) : AtMost 4 (@Flipper.bat (ieee sin cos pow) A f).scale := by
  have big : (2 : ℝ) ^ 90 + 2 ^ 90 ≤ 2 ^ 100 := by norm_num
  have d := atMost_add hb (atMost_neg he) hV hV (by linarith)
  have h1 := K.asin _ (clamp_small (sin := sin) (cos := cos) (pow := pow) (div_not_nan d.1 hl.1 h0))
  have hv : value (ieeeMul fPi fHalf) = 13176795 / 2 ^ 23 := by
    rw [value_val, show F32.val (ieeeMul fPi fHalf) = 13176795 * 2 ^ 126 by decide +kernel]
    rw [Int.cast_mul, Int.cast_pow, Int.cast_ofNat, Int.cast_ofNat,
      show (2 : ℝ) ^ 149 = 2 ^ 23 * 2 ^ 126 by rw [← pow_add]]
    field_simp
  have hq : |value (A.asin (@clampOne (ieee sin cos pow) (ieeeDiv (ieeeAdd f.base_radius f.end_radius.neg)
      f.flipper_radius_max))) / value (ieeeMul fPi fHalf)| ≤ 2 := by
    rw [abs_div, hv, abs_of_pos (by norm_num : (0 : ℝ) < 13176795 / 2 ^ 23), div_le_iff₀ (by norm_num)]
    refine h1.2.trans ?_
    norm_num
  have hr := div_rounds h1.1 (show (ieeeMul fPi fHalf).isFinite = true by decide +kernel) (by rw [hv]; norm_num)
    (hq.trans (by norm_num))
  refine ⟨hr.1, ?_⟩
  show |value (ieeeDiv _ _)| ≤ 4
  have e := hr.2.1
  generalize value (ieeeDiv _ _) = x at e ⊢
  generalize value (A.asin _) / _ = y at e hq
  have e2 : |x| ≤ |x - y| + |y| := by
    have := abs_add_le (x - y) y
    rwa [sub_add_cancel] at this
  have e3 : |y| / 2 ^ 24 ≤ 1 := by
    rw [div_le_one (by positivity)]
    exact hq.trans (by norm_num)
  have e4 : (1 : ℝ) / 2 ^ 150 ≤ 1 := by
    rw [div_le_one (by positivity)]
    exact one_le_pow₀ (by norm_num)
  linarith

/-! ### The vertices on the circles -/

/-- a vertex is on one of the circles, at a finite angle -/
def OnRound (sin cos : F32 → F32) (pow : F32 → F32 → F32) (s : BatShape) (z : F32) (w : Vertex) : Prop :=
  letI := ieee sin cos pow
  w.z = z ∧ ∃ angle : F32, angle.isFinite = true ∧
    ((w.x, w.y) = circlePoint angle s.baseRadius 0 0 ∨ (w.x, w.y) = circlePoint angle s.endRadius 0 s.length)

theorem mid_base : AtMost 2 (ieeeMul (F32.neg fPi) fHalf) := by
  simpa using small_const 2 (x := ieeeMul (F32.neg fPi) fHalf) (by decide +kernel)

theorem mid_tip : AtMost 2 (ieeeMul fPi fHalf) := by simpa using small_const 2 (x := ieeeMul fPi fHalf) (by decide +kernel)

theorem fix_round (A : ItemFns) (K : SaneAngles A) (s : BatShape) (hs : AtMost 4 s.scale) {x y z : F32} {u : Vertex}
    (h : @vertexMatches (ieee sin cos pow) u x y z = true) :
    OnRound sin cos pow s u.z (@applyFix (ieee sin cos pow) A ⟨0, 0⟩ (ieeeMul (F32.neg fPi) fHalf) s.baseRadius ⟨0, 0⟩ s.scale u) ∧
      OnRound sin cos pow s u.z
        (@applyFix (ieee sin cos pow) A ⟨0, 0x3f494c34⟩ (ieeeMul fPi fHalf) s.endRadius ⟨0, s.length⟩ s.scale u) := by
  rw [matches_eq] at h
  simp only [Bool.and_eq_true] at h
  have nx := close_not_nan h.1.1
  have ny := close_not_nan h.1.2
  have f0 : (F32.neg 0).isFinite = true := by decide +kernel
  have f1 : (F32.neg 0x3f494c34).isFinite = true := by decide +kernel
  exact ⟨⟨rfl, _, fixed_finite mid_base hs (sameSign_small (K.atan2 _ _ (add_not_nan ny f0) (add_not_nan nx f0))), Or.inl rfl⟩,
    ⟨rfl, _, fixed_finite mid_tip hs (sameSign_small (K.atan2 _ _ (add_not_nan ny f1) (add_not_nan nx f0))), Or.inr rfl⟩⟩

theorem fixVertex_round (A : ItemFns) (K : SaneAngles A) (s : BatShape) (hs : AtMost 4 s.scale) (b t : Vec2) {z : F32}
    {v : Vertex} (hz : v.z = z) (h : OnRound sin cos pow s z v ∨ @matchesEnd (ieee sin cos pow) v (b, t) = true) :
    OnRound sin cos pow s z (@fixVertex (ieee sin cos pow) A s b t v) := by
  subst hz
  have pick : ∀ {x y z : F32} (f : Vertex → Vertex) (u : Vertex),
      (∀ w, @vertexMatches (ieee sin cos pow) w x y z = true → OnRound sin cos pow s w.z (f w)) → u.z = v.z →
      (OnRound sin cos pow s v.z u ∨ @vertexMatches (ieee sin cos pow) u x y z = true) →
      OnRound sin cos pow s v.z (if @vertexMatches (ieee sin cos pow) u x y z then f u else u) := by
    intro x y z f u hf hz hu
    split
    · next h => rw [← hz]; exact hf u h
    · next h => exact hu.resolve_right h
  have base := fun {x y z : F32} (w : Vertex) (h : @vertexMatches (ieee sin cos pow) w x y z = true) =>
    (fix_round A K s hs h).1
  have tip := fun {x y z : F32} (w : Vertex) (h : @vertexMatches (ieee sin cos pow) w x y z = true) =>
    (fix_round A K s hs h).2
  unfold fixVertex
  dsimp only
  unfold matchesEnd at h
  by_cases h1 : @vertexMatches (ieee sin cos pow) v b.x b.y fBatBottom = true
  · have k1 := pick _ v base rfl (Or.inr h1)
    have k2 := pick (x := t.x) (y := t.y) (z := fBatBottom) _ _ tip k1.1 (Or.inl k1)
    have k3 := pick (x := b.x) (y := b.y) (z := fBatTop) _ _ base k2.1 (Or.inl k2)
    exact pick _ _ tip k3.1 (Or.inl k3)
  · rw [if_neg h1]
    by_cases h2 : @vertexMatches (ieee sin cos pow) v t.x t.y fBatBottom = true
    · have k2 := pick _ v tip rfl (Or.inr h2)
      have k3 := pick (x := b.x) (y := b.y) (z := fBatTop) _ _ base k2.1 (Or.inl k2)
      exact pick _ _ tip k3.1 (Or.inl k3)
    · rw [if_neg h2]
      by_cases h3 : @vertexMatches (ieee sin cos pow) v b.x b.y fBatTop = true
      · have k3 := pick _ v base rfl (Or.inr h3)
        exact pick _ _ tip k3.1 (Or.inl k3)
      · rw [if_neg h3]
        refine pick _ v tip rfl (h.imp id fun h => ?_)
        simp only [h1, h2, h3, Bool.or_eq_true] at h
        simpa using h

theorem fold_round (A : ItemFns) (K : SaneAngles A) (s : BatShape) (hs : AtMost 4 s.scale) {v : Vertex}
    (l : List (Vec2 × Vec2)) (w : Vertex) (hz : w.z = v.z)
    (h : OnRound sin cos pow s v.z w ∨ w = v ∧ l.any (@matchesEnd (ieee sin cos pow) v) = true) :
    OnRound sin cos pow s v.z (l.foldl (fun v e => @fixVertex (ieee sin cos pow) A s e.1 e.2 v) w) := by
  induction l generalizing w with
  | nil =>
    rcases h with h | ⟨_, h⟩
    · exact h
    · cases h
  | cons e l ih =>
    rcases h with h | ⟨rfl, h⟩
    · have k := fixVertex_round A K s hs e.1 e.2 hz (Or.inl h)
      exact ih _ k.1 (Or.inl k)
    · cases hm : @matchesEnd (ieee sin cos pow) w e with
      | true =>
        have k := fixVertex_round A K s hs e.1 e.2 rfl (Or.inr hm)
        exact ih _ k.1 (Or.inl k)
      | false =>
        rw [List.any_cons, hm, Bool.false_or] at h
        have k := @fixVertex_none (ieee sin cos pow) A s e.1 e.2 w hm
        rw [List.foldl_cons, k]
        exact ih w rfl (Or.inr ⟨rfl, h⟩)

theorem fixed_round (A : ItemFns) (K : SaneAngles A) (s : BatShape) (hs : AtMost 4 s.scale) (v : Vertex)
    (hv : v ∈ meshTables.flipperBase.vertices) :
    OnRound sin cos pow s v.z (@fixedVertex (ieee sin cos pow) A s v) := by
  refine fold_round A K s hs _ v rfl (Or.inr ⟨rfl, ?_⟩)
  obtain ⟨he, hz⟩ := endPoints_cases hv
  rw [List.any_eq_true]
  rcases he with he | he
  · obtain ⟨k, hk, h⟩ := List.mem_iff_getElem.mp he
    have hk' : k < 13 := by simpa [vertsBase] using hk
    have hl : k < (vertsBase.zip vertsTip).length := by simp [vertsBase, vertsTip]; omega
    refine ⟨_, List.getElem_mem hl, ?_⟩
    rw [matchesEnd_point sin cos pow (i := k) (p := ⟨v.x, v.y⟩) (k := k)
      (by rw [List.getElem?_append_left hk, List.getElem?_eq_getElem hk, h]) rfl hz (List.getElem?_eq_getElem hl)]
    simp
  · obtain ⟨k, hk, h⟩ := List.mem_iff_getElem.mp he
    have hk' : k < 13 := by simpa [vertsTip] using hk
    have hl : k < (vertsBase.zip vertsTip).length := by simp [vertsBase, vertsTip]; omega
    refine ⟨_, List.getElem_mem hl, ?_⟩
    rw [matchesEnd_point sin cos pow (i := 13 + k) (p := ⟨v.x, v.y⟩) (k := k)
      (by
        rw [List.getElem?_append_right (by simp [vertsBase])]
        have : 13 + k - vertsBase.length = k := by simp [vertsBase]
        rw [this, List.getElem?_eq_getElem hk, h]) rfl hz (List.getElem?_eq_getElem hl)]
    simp

/-- a point of a circle, as calculated -/
theorem round_near_point (T : CloseTrig sin cos) (hV : 1 ≤ V) (hV' : V ≤ 2 ^ 90) {s : BatShape} {z : F32} {w : Vertex}
    {R r : ℝ} (h : OnRound sin cos pow s z w) (hR : Near 2 (3 * V) s.baseRadius R) (hr : Near 2 (3 * V) s.endRadius r)
    (hl : AtMost V s.length) (hz : AtMost 2 z) :
    ∃ angle, NearP 5 (4 * V) w.pos (endPoint R 0 angle (value z)) ∨
      NearP 5 (4 * V) w.pos (endPoint r (value s.length) angle (value z)) := by
  have big : (2 : ℝ) ^ 90 * 9 ≤ 2 ^ 100 := by norm_num
  obtain ⟨hwz, angle, hf, hxy⟩ := h
  have hs : Near 1 1 (sin angle) (Real.sin (value angle)) := by
    have := trig_near (n := 0) (t := value angle) (T.sin _ hf) Real.abs_sin_sub_sin_le (Real.abs_sin_le_one _) (by simp)
    simpa using this
  have hc : Near 1 1 (cos angle) (Real.cos (value angle)) := by
    have := trig_near (n := 0) (t := value angle) (T.cos _ hf) Real.abs_cos_sub_cos_le (Real.abs_cos_le_one _) (by simp)
    simpa using this
  have zN : Near 5 (4 * V) w.z (value z) := by
    rw [hwz]
    exact ((Near.of_atMost hz (by norm_num)).mono (by omega)).widen (by linarith) (Or.inr (by linarith))
  have prod : ∀ {x q : F32} {a b : ℝ}, Near 1 1 x a → Near 2 (3 * V) q b → Near 4 (3 * V) (ieeeMul x q) (b * a) := by
    intro x q a b hx hq
    have := hx.mul hq (by omega) (by linarith)
    rwa [_root_.one_mul, mul_comm a b] at this
  have zero : ∀ {x : F32} {a : ℝ}, Near 4 (3 * V) x a → Near 5 (4 * V) (ieeeAdd x 0) a := by
    intro x a hx
    have := ((hx.add_zero Near.zero (by omega) (by linarith)).mono (show 4 ≤ 5 by omega)).widen (l := 4 * V) (by linarith)
      (Or.inr (by linarith))
    rwa [_root_.add_zero] at this
  refine ⟨value angle, hxy.imp (fun h => ?_) fun h => ?_⟩
  · have hx : w.x = _ := (Prod.mk.inj h).1
    have hy : w.y = _ := (Prod.mk.inj h).2
    refine ⟨?_, ?_, zN⟩
    · show Near _ _ w.x _
      rw [hx]; exact zero (prod hc hR)
    · show Near _ _ w.y (R * Real.sin (value angle) + 0)
      rw [hy, _root_.add_zero]; exact zero (prod hs hR)
  · have hx : w.x = _ := (Prod.mk.inj h).1
    have hy : w.y = _ := (Prod.mk.inj h).2
    refine ⟨?_, ?_, zN⟩
    · show Near _ _ w.x _
      rw [hx]; exact zero (prod hc hr)
    · show Near _ _ w.y (r * Real.sin (value angle) + value s.length)
      rw [hy]
      have := (prod hs hr).add ((Near.of_atMost hl hV).mono (show 0 ≤ 4 by omega)) (by omega) (by linarith)
      rwa [show 3 * V + V = 4 * V by ring] at this

theorem half_turn_degrees : AtMost (360 * (1 : ℕ)) f180 := by
  refine ⟨by decide +kernel, ?_⟩
  rw [value_180]; norm_num [abs_le]

/-- the second turn, written out -/
theorem second_turn {k : ℕ} {m : ℝ} {p : V3 F32} {q : V3 ℝ} (T : CloseTrig sin cos) (hn : 1 ≤ n) (hn' : n ≤ 400)
    (h : NearP k m p q) (hk : k ≤ 100) (hm : 2 * m ≤ 2 ^ 100) {a : F32} (ha : AtMost (360 * n) a) :
    letI := ieee sin cos pow
    let t := turnedBy (value a) q
    let xy := turnedXy (Ops.radians a) p.x p.y
    Near (k + 4 * n + 3) (2 * m) xy.1 t.x ∧ Near (k + 4 * n + 3) (2 * m) xy.2 t.y := by
  obtain ⟨hs, hc⟩ := degrees_near T hn ha (by omega)
  have h0 := h.x.nonneg
  have prod : ∀ {x y : F32} {u v : ℝ}, Near k m x u → Near (4 * n + 1) 1 y v →
      Near (k + 4 * n + 2) m (ieeeMul x y) (u * v) := by
    intro x y u v hx hy
    have := hx.mul hy (by omega) (by linarith)
    rw [_root_.mul_one] at this
    exact this.mono (by omega)
  refine ⟨?_, ?_⟩
  · have := (prod h.x hc).sub (prod h.y hs) (by omega) (by linarith)
    rw [show m + m = 2 * m by ring, mul_comm q.x, mul_comm q.y] at this
    exact this
  · have := (prod h.x hs).add (prod h.y hc) (by omega) (by linarith)
    rw [show m + m = 2 * m by ring, mul_comm q.x, mul_comm q.y] at this
    exact this

theorem turned_twice (d : ℝ) (q : V3 ℝ) : turnedBy d (turnedBy (value f180) q) = turnedBy (d + 180) q := by
  rw [value_180]
  unfold turnedBy turnZ
  rw [add_mul, Real.cos_add, Real.sin_add]
  simp only [V3.mk.injEq]
  exact ⟨by ring, by ring, trivial⟩

/-- a vertex of a bat -/
theorem bat_point (T : CloseTrig sin cos) (hn : 1 ≤ n) (hn' : n ≤ 400) (hV : 1 ≤ V) (hV' : V ≤ 2 ^ 90) {p : V3 F32}
    {q : V3 ℝ} (h : NearP 5 (4 * V) p q) (hz : Near 0 2 p.z q.z) {a height lift : F32} {up : ℝ}
    (ha : AtMost (360 * n) a) (hh : AtMost V height) (hl : Near 1 (2 * V) lift up) :
    letI := ieee sin cos pow
    Within (V * ((n + 4) / 2 ^ 17)) (flipperPoint f180 a height lift p) (batPlace (value a) (value height) up q) := by
  have big : (2 : ℝ) ^ 90 * 20 ≤ 2 ^ 100 := by norm_num
  have hnR : (1 : ℝ) ≤ n := by exact_mod_cast hn
  obtain ⟨hs, hc⟩ := degrees_near T (le_refl 1) half_turn_degrees (by omega)
  have h1 := h.turned (pow := pow) hs hc (by omega) (by linarith)
  obtain ⟨hx, hy⟩ := second_turn (pow := pow) T hn hn' h1 (by omega) (by linarith) ha
  have hq : turnedBy (value a) (turnZ (Real.cos (value f180 * (Real.pi / 180))) (Real.sin (value f180 * (Real.pi / 180))) q)
      = turnedBy (value a + 180) q := turned_twice _ _
  rw [hq] at hx hy
  have z1 := ((Near.zero.zero_mul h.x).add_zero (Near.zero.zero_mul h.y) (by omega) (by norm_num)).zero_add
    (Near.one_mul exact_one' hz (by omega) (by norm_num)) (by omega) (by norm_num)
  have z2 := z1.mul (Near.of_atMost hh hV) (by omega) (by linarith)
  have z3 := z2.add (hl.mono (by omega)) (by omega) (by linarith)
  have e1 : 2 * (2 * (4 * V)) * (((5 + (4 * 1 + 1) + 2 + 4 * n + 3 : ℕ) : ℝ) + 1) / 2 ^ 23 = V * ((n + 4) / 2 ^ 17) := by
    push_cast; ring
  have hx' := hx.le (by omega)
  have hy' := hy.le (by omega)
  have hz' := z3.le (by omega)
  rw [← mul_div_assoc, e1] at hx' hy'
  have ex : (batPlace (value a) (value height) up q).x = (turnedBy (value a + 180) q).x := by
    simp [batPlace, move, stretch]
  have ey : (batPlace (value a) (value height) up q).y = (turnedBy (value a + 180) q).y := by
    simp [batPlace, move, stretch]
  have ez : (batPlace (value a) (value height) up q).z = (0 * q.x + 0 * q.y + 1 * q.z) * value height + up := by
    simp [batPlace, move, stretch, turnedBy, turnZ]; ring
  refine ⟨⟨hx.finite, hy.finite, z3.finite⟩, ?_, ?_, ?_⟩
  · rw [ex]; exact hx'
  · rw [ey]; exact hy'
  · rw [ez]
    refine hz'.trans ?_
    push_cast
    have : V * (4 * 3 / 2 ^ 23) ≤ V * ((n + 4) / 2 ^ 17) :=
      mul_le_mul_of_nonneg_left (by rw [div_le_div_iff₀ (by positivity) (by positivity)]; nlinarith) (by linarith)
    linarith

/-- a normal of a bat -/
theorem bat_normal (T : CloseTrig sin cos) (hn : 1 ≤ n) (hn' : n ≤ 400) {p : V3 F32} (hp : InBox 1 p) {a : F32}
    (ha : AtMost (360 * n) a) :
    letI := ieee sin cos pow
    Within ((4 * n + 11) / 2 ^ 21) (flipperNormal f180 a p) (turnedBy (value a + 180) (point p)) := by
  have h1 := turned_point (pow := pow) T (le_refl 1) (by norm_num) (le_refl 1) (by omega) half_turn_degrees hp
  obtain ⟨hx, hy⟩ := second_turn (pow := pow) T hn hn' h1 (by omega) (by norm_num) ha
  rw [turned_twice] at hx hy
  have hz := h1.z
  have : NearP (4 * 1 + 3 + 4 * n + 3) (2 * (2 * 1)) (@flipperNormal F32 (@instOpsF32OfArith (ieee sin cos pow)) f180 a p)
      (turnedBy (value a + 180) (point p)) := ⟨hx, hy, (hz.mono (by omega)).widen (by norm_num) (Or.inr (by norm_num))⟩
  refine this.within (by omega) (le_of_eq ?_)
  push_cast
  ring

theorem vertex_pos_z (v : Vertex) : v.pos.z = v.z := rfl

theorem flipperBase_ok : flipperBaseVertices.all (packedOk 2) = true := by decide +kernel

theorem flipper_table {v : Vertex} (hv : v ∈ meshTables.flipperBase.vertices) : AtMost 2 v.z ∧ InBox 1 v.normal := by
  have h := List.all_eq_true.1 flipperBase_ok
  obtain ⟨k, hk, rfl⟩ := List.mem_map.1 (show v ∈ flipperBaseVertices.map unpackVertex from hv)
  obtain ⟨h1, h2, -⟩ := packedOk_spec (h k hk)
  have h3 : AtMost ((2 : ℕ) : ℝ) (unpackVertex k).z := h1.2.2
  exact ⟨by simpa using h3, h2⟩

/-- **C96**: the vertices of a flipper, whose radii, length, heights and thickness are at most `V`, and whose angle is at
most `n` turns. Every vertex of the bat is at most `(n + 4) / 2^17` of `V` away from a point of the circle of the base or
of the tip, which are smaller than the radii of the flipper by the thickness of the rubber; those of the rubber are as
close to the circles with the radii of the flipper. The normals are turned with it. -/
theorem C96_flipper (T : CloseTrig sin cos) (A : ItemFns) (K : SaneAngles A) (hn : 1 ≤ n) (hn' : n ≤ 400) (hV : 1 ≤ V)
    (hV' : V ≤ 2 ^ 90) (f : Flipper) (surface : F32) (pos : Vec3) (bat : RawMesh) (rubber : Option RawMesh)
    (ka : AtMost (360 * n) f.start_angle) (kb : AtMost V f.base_radius) (ke : AtMost V f.end_radius)
    (kl : AtMost V f.flipper_radius_max) (k0 : value f.flipper_radius_max ≠ 0) (kh : AtMost V f.height)
    (ks : AtMost V surface) :
    letI := ieee sin cos pow
    let thickness := f.rubber_thickness.getD (Arith.ofNat f.rubber_thickness_int.toNat)
    let rubberBegin := f.rubber_height.getD (Arith.ofNat f.rubber_height_int.toNat)
    let rubberHeight := f.rubber_width.getD (Arith.ofNat f.rubber_width_int.toNat)
    AtMost V thickness → AtMost V rubberBegin → AtMost V rubberHeight →
    buildFlipperMeshes A meshTables f surface = some (pos, bat, rubber) →
    let e := V * ((n + 4) / 2 ^ 17)
    let R := value f.base_radius
    let r := value f.end_radius
    let long := value f.flipper_radius_max
    let angle := value f.start_angle
    RoundEnds e bat meshTables.flipperBase (R - value thickness) (r - value thickness) long
      (batPlace angle (value f.height) (value surface)) ∧
    FollowsNormals ((4 * n + 11) / 2 ^ 21) bat meshTables.flipperBase (turnedBy (angle + 180)) ∧
    ∀ m, rubber = some m →
      RoundEnds e m meshTables.flipperBase R r long
        (batPlace angle (value rubberHeight) (value surface + value rubberBegin)) ∧
      FollowsNormals ((4 * n + 11) / 2 ^ 21) m meshTables.flipperBase (turnedBy (angle + 180)) := by
  intro thickness rubberBegin rubberHeight kt kr kw h e R r long angle
  have big : (2 : ℝ) ^ 90 * 20 ≤ 2 ^ 100 := by norm_num
  have hs := scale_small (sin := sin) (cos := cos) (pow := pow) A K f hV hV' kb ke kl k0
  have less : ∀ {x : F32}, AtMost V x → Near 1 (2 * V) (ieeeAdd x thickness.neg) (value x - value thickness) := by
    intro x hx
    have := (Near.of_atMost hx hV).sub (Near.of_atMost kt hV) (by omega) (by linarith)
    rwa [show V + V = 2 * V by ring] at this
  have again : ∀ {x : F32}, AtMost V x → Near 2 (3 * V) (ieeeAdd (ieeeAdd x thickness.neg) thickness) (value x) := by
    intro x hx
    have := (less hx).add ((Near.of_atMost kt hV).mono (show 0 ≤ 1 by omega)) (by omega) (by linarith)
    rwa [show 2 * V + V = 3 * V by ring, sub_add_cancel] at this
  have part : ∀ {s : BatShape} {a b : ℝ} {height lift : F32} {up : ℝ} {tv : F32 → F32}, AtMost 4 s.scale →
      Near 2 (3 * V) s.baseRadius a → Near 2 (3 * V) s.endRadius b → s.length = f.flipper_radius_max → AtMost V height →
      Near 1 (2 * V) lift up →
      RoundEnds e ⟨meshTables.flipperBase.vertices.map
          (@flipperVertex (ieee sin cos pow) A s f.start_angle height lift tv), meshTables.flipperBase.tris.map Tri.face⟩
        meshTables.flipperBase a b long (batPlace angle (value height) up) ∧
      FollowsNormals ((4 * n + 11) / 2 ^ 21) ⟨meshTables.flipperBase.vertices.map
          (@flipperVertex (ieee sin cos pow) A s f.start_angle height lift tv), meshTables.flipperBase.tris.map Tri.face⟩
        meshTables.flipperBase (turnedBy (angle + 180)) := by
    intro s a b height lift up tv h1 h2 h3 h4 h5 h6
    refine ⟨?_, ?_⟩
    · unfold RoundEnds
      rw [List.forall₂_map_left_iff]
      refine List.forall₂_same.2 fun v hv => ?_
      have on := fixed_round (sin := sin) (cos := cos) (pow := pow) A K s h1 v hv
      have hz := (flipper_table hv).1
      obtain ⟨t, ht⟩ := round_near_point T hV hV' on h2 h3 (by rw [h4]; exact kl) hz
      have zN : Near 0 2 (@fixedVertex (ieee sin cos pow) A s v).pos.z (value v.z) := by
        rw [vertex_pos_z, on.1]
        exact Near.of_atMost hz (by norm_num)
      rw [h4] at ht
      exact ⟨t, ht.imp (fun k => bat_point (pow := pow) T hn hn' hV hV' k zN ka h5 h6)
        fun k => bat_point (pow := pow) T hn hn' hV hV' k zN ka h5 h6⟩
    · unfold FollowsNormals
      rw [List.forall₂_map_left_iff]
      exact List.forall₂_same.2 fun v hv => bat_normal (pow := pow) T hn hn' (flipper_table hv).2 ka
  unfold buildFlipperMeshes at h
  split at h
  · cases h
  · unfold buildFlipperMeshesUnchecked at h
    cases h
    have widen : ∀ {x : F32} {y : ℝ}, Near 1 (2 * V) x y → Near 2 (3 * V) x y := fun h =>
      (h.mono (by omega)).widen (by linarith) (Or.inr (by linarith))
    have lift0 : Near 1 (2 * V) surface (value surface) :=
      ((Near.of_atMost ks hV).mono (by omega)).widen (by linarith) (Or.inr (by linarith))
    have lift1 : Near 1 (2 * V) (ieeeAdd surface rubberBegin) (value surface + value rubberBegin) := by
      have := (Near.of_atMost ks hV).add (Near.of_atMost kr hV) (by omega) (by linarith)
      rwa [show V + V = 2 * V by ring] at this
    obtain ⟨p1, p2⟩ := part (s := @Flipper.bat (ieee sin cos pow) A f) (tv := id) hs (widen (less kb)) (widen (less ke)) rfl
      kh lift0
    refine ⟨p1, p2, fun m hm => ?_⟩
    split at hm
    · cases hm
      exact part (s := @Flipper.rubberBat (ieee sin cos pow) A f) hs (again kb) (again ke) rfl kw lift1
    · cases hm

end

/-! ### A case that meets the hypotheses -/

theorem sampleAngles : SaneAngles flipperFns :=
  ⟨fun _ _ _ _ => ⟨show F32.isFinite 0 = true by decide +kernel, by show |value 0| ≤ 4; rw [value_zero]; norm_num⟩, fun x h => atMost_mono h (by norm_num)⟩

/-- the flipper of `C83` has a bat, and its vertices are within a hundredth of the circles -/
example : ∃ pos bat rubber, @buildFlipperMeshes nearArith flipperFns meshTables flipperSample 0 = some (pos, bat, some rubber) ∧
    RoundEnds (1 / 100) bat meshTables.flipperBase (value flipperSample.base_radius - value fTwo)
      (value flipperSample.end_radius - value fTwo) (value flipperSample.flipper_radius_max)
      (batPlace (value flipperSample.start_angle) (value flipperSample.height) (value 0)) := by
  have ok : ∀ {x : F32}, digitOk 130 x.toNat = true → AtMost 130 x := fun h => by simpa using small_const 130 h
  have hr : (@buildFlipperMeshes nearArith flipperFns meshTables flipperSample 0).map (fun m => m.2.2.isSome) = some true := by
    decide +kernel
  cases hb : @buildFlipperMeshes nearArith flipperFns meshTables flipperSample 0 with
  | none => rw [hb] at hr; cases hr
  | some r =>
    obtain ⟨pos, bat, rubber⟩ := r
    rw [hb] at hr
    have hr : rubber.isSome = true := Option.some.inj hr
    obtain ⟨rubber, rfl⟩ := Option.isSome_iff_exists.1 hr
    have h0 : value flipperSample.flipper_radius_max ≠ 0 := by
      rw [value_val, show F32.val flipperSample.flipper_radius_max = 130 * 2 ^ 149 by decide +kernel]
      rw [Int.cast_mul, Int.cast_pow, Int.cast_ofNat, Int.cast_ofNat]
      positivity
    obtain ⟨h1, -⟩ := C96_flipper (n := 1) (V := 130) nearTrig flipperFns sampleAngles le_rfl (by norm_num) (by norm_num)
      (by norm_num) flipperSample 0 pos bat (some rubber)
      (by simpa using small_const 360 (x := flipperSample.start_angle) (by decide +kernel)) (ok (by decide +kernel))
      (ok (by decide +kernel)) (ok (by decide +kernel)) h0 (ok (by decide +kernel)) (ok (by decide +kernel))
      (ok (by decide +kernel)) (ok (by decide +kernel)) (ok (by decide +kernel)) hb
    refine ⟨pos, bat, rubber, rfl, h1.imp fun w v h => ?_⟩
    have le : ((130 : ℝ) * (((1 : ℕ) + 4) / 2 ^ 17)) ≤ 1 / 100 := by norm_num
    obtain ⟨t, h⟩ := h
    exact ⟨t, h.imp (fun h => ⟨h.1, h.2.1.trans le, h.2.2.1.trans le, h.2.2.2.trans le⟩)
      fun h => ⟨h.1, h.2.1.trans le, h.2.2.1.trans le, h.2.2.2.trans le⟩⟩

end Vpin
