import Mathlib.Tactic.Linarith
import Mathlib.Tactic.Ring
import Mathlib.Tactic.FieldSimp
import Mathlib.Analysis.SpecialFunctions.Trigonometric.Arctan
import Verif.Spec.Camera
import Verif.Props.GltfGroups
import Verif.Lemmas.GltfSample
/-
C88: the cameras of the glTF export.
-/
namespace Vpin
open Views

/-- the angle of a camera from the horizontal, in radians: 90 degrees for a look-at value of 0, 0 for 100 -/
noncomputable def lookAngle (inclination : ℝ) : ℝ := 90 * (1 - inclination / 100) * (Real.pi / 180)

section
attribute [local instance] realCamera

theorem rc_add (x y : ℝ) : Ops.add x y = x + y := rfl
theorem rc_sub (x y : ℝ) : Ops.sub x y = x - y := rfl
theorem rc_mul (x y : ℝ) : Ops.mul x y = x * y := rfl
theorem rc_div (x y : ℝ) : Ops.div x y = x / y := rfl
theorem rc_neg (x : ℝ) : Ops.neg x = -x := rfl
theorem rc_zero : (Ops.zero : ℝ) = 0 := rfl
theorem rc_one : (Ops.one : ℝ) = 1 := rfl
theorem rc_sin (x : ℝ) : Ops.sin x = Real.sin x := rfl
theorem rc_cos (x : ℝ) : Ops.cos x = Real.cos x := rfl
theorem rc_two : (CameraOps.two : ℝ) = 2 := rfl
theorem rc_half : (CameraOps.half : ℝ) = 1 / 2 := rfl
theorem rc_nearer : (CameraOps.nearer : ℝ) = 47 / 100 := rfl
theorem rc_metre : (CameraOps.metre : ℝ) = vpu := rfl

theorem real_pitch (i : ℝ) : viewPitch i = lookAngle i := rfl

theorem half_turn (a : ℝ) : Real.sin a = 2 * Real.sin (a / 2) * Real.cos (a / 2) ∧
    Real.cos a = 1 - 2 * (Real.sin (a / 2) * Real.sin (a / 2)) := by
  have e : a = 2 * (a / 2) := by ring
  constructor
  · conv_lhs => rw [e, Real.sin_two_mul]
  · conv_lhs => rw [e, Real.cos_two_mul]
    have := Real.sin_sq_add_cos_sq (a / 2)
    nlinarith

/-- the rotation of a camera -/
theorem camera_turned (a : ℝ) (v : V3 ℝ) : turned (eulerQuaternion (0 : ℝ) (-a)) v =
    ⟨v.x, Real.cos a * v.y + Real.sin a * v.z, Real.cos a * v.z - Real.sin a * v.y⟩ := by
  obtain ⟨h1, h2⟩ := half_turn a
  have e : eulerQuaternion (0 : ℝ) (-a) = (-Real.sin (a / 2), 0, 0, Real.cos (a / 2)) := by
    show (Real.cos (0 / 2) * Real.sin (-a / 2), Real.sin (0 / 2) * Real.cos (-a / 2),
      -Real.sin (0 / 2) * Real.sin (-a / 2), Real.cos (0 / 2) * Real.cos (-a / 2)) = _
    have e1 : (-a / 2 : ℝ) = -(a / 2) := by ring
    rw [e1]
    simp
  rw [e]
  unfold turned
  simp only [V3.mk.injEq]
  rw [h1, h2]
  refine ⟨by ring, by ring, by ring⟩

/-- **C88**: the rotation of a camera is a unit quaternion, and turns the camera down from the horizontal by the angle of
its look-at value, without tilting it to a side. -/
theorem C88_view (s : ViewSettings ℝ) (b : TableBounds ℝ) :
    let c := ViewCamera.of s b
    let a := lookAngle s.inclination
    (c.rotation.1 ^ 2 + c.rotation.2.1 ^ 2 + c.rotation.2.2.1 ^ 2 + c.rotation.2.2.2 ^ 2 = 1) ∧
    forward c = ⟨0, -Real.sin a, -Real.cos a⟩ ∧ backward c = ⟨0, Real.sin a, Real.cos a⟩ ∧ rightward c = ⟨1, 0, 0⟩ ∧
    upward c = ⟨0, Real.cos a, -Real.sin a⟩ ∧ c.yfov = s.fov * (Real.pi / 180) := by
  intro c a
  have hq : c.rotation = eulerQuaternion (0 : ℝ) (-a) := rfl
  refine ⟨?_, ?_, ?_, ?_, ?_, rfl⟩
  · rw [hq]
    show (Real.cos (0 / 2) * Real.sin (-a / 2)) ^ 2 + (Real.sin (0 / 2) * Real.cos (-a / 2)) ^ 2 +
      (-Real.sin (0 / 2) * Real.sin (-a / 2)) ^ 2 + (Real.cos (0 / 2) * Real.cos (-a / 2)) ^ 2 = 1
    have := Real.sin_sq_add_cos_sq (-a / 2)
    simp only [zero_div, Real.cos_zero, Real.sin_zero, one_mul, zero_mul, neg_zero]
    nlinarith
  all_goals
    first | unfold forward | unfold backward | unfold rightward | unfold upward
    rw [hq, camera_turned]
    simp

/-- the distance that `fit_camera_to_vertices` finds for these settings -/
noncomputable def fitted (s : ViewSettings ℝ) (b : TableBounds ℝ) : ℝ :=
  (fitCamera b (16 / 9) 0 (lookAngle s.inclination) s.fov 0 0 b.glass_height).z

/-- the distance of a camera from the centre of the table before it is moved -/
noncomputable def viewDistance (s : ViewSettings ℝ) (b : TableBounds ℝ) : ℝ :=
  match s.layout_mode with
  | .Legacy => 47 / 100 * ((s.scale_x + s.scale_y) / 2) * fitted s b
  | _ => 47 / 100 * fitted s b

/-- **C88**: where a camera is, in metres: behind the centre of the table, seen in the direction in which it looks. In
the layout modes Camera and Window the x offset moves it to the right, the y offset away from the table and the z offset
straight up; in the mode Legacy the x offset moves it to the right, the z offset away from the table, and the y offset
up and towards the player. -/
theorem C88_place (s : ViewSettings ℝ) (b : TableBounds ℝ) :
    let c := ViewCamera.of s b
    let a := lookAngle s.inclination
    c.position = plus (centre b) (times vpu (plus (times (viewDistance s b) (backward c))
      (plus (times s.offset_x (rightward c))
        (match s.layout_mode with
        | .Legacy => plus (times s.offset_z (backward c)) (times s.offset_y ⟨0, Real.cos a, Real.sin a⟩)
        | _ => plus (times s.offset_y (backward c)) (times s.offset_z skyward))))) := by
  intro c a
  obtain ⟨-, -, h1, h2, -, -⟩ := C88_view s b
  show (ViewCamera.of s b).position = _
  rw [show backward c = _ from h1, show rightward c = _ from h2]
  obtain ⟨mode, layout, fov, incl, ox, oy, oz, sx, sy⟩ := s
  have hf : (fitCamera b CameraOps.aspect (Ops.zero : ℝ) (viewPitch incl) fov Ops.zero Ops.zero b.glass_height).z
    = fitted ⟨mode, layout, fov, incl, ox, oy, oz, sx, sy⟩ b := rfl
  cases layout <;>
  · unfold ViewCamera.of viewDistance
    dsimp only
    rw [hf]
    generalize fitted _ b = d
    simp only [plus, times, centre, skyward, cameraPoint, TableBounds.centerX, TableBounds.centerY, V3.mk.injEq, rc_add, rc_mul, rc_div,
      rc_zero, rc_sin, rc_cos, rc_two, rc_nearer, rc_metre, real_pitch]
    refine ⟨by ring, by ring, by ring⟩

/-- **C88**: a camera that is not moved looks at the centre of the table, from the distance found for it. -/
theorem C88_centre (s : ViewSettings ℝ) (b : TableBounds ℝ) (hx : s.offset_x = 0) (hy : s.offset_y = 0)
    (hz : s.offset_z = 0) :
    let c := ViewCamera.of s b
    plus c.position (times (vpu * viewDistance s b) (forward c)) = centre b := by
  intro c
  have h := C88_place s b
  obtain ⟨-, h0, h1, h2, -, -⟩ := C88_view s b
  show plus (ViewCamera.of s b).position (times _ (forward (ViewCamera.of s b))) = _
  rw [h, h0, h1, h2, hx, hy, hz]
  cases s.layout_mode <;>
  · simp only [plus, times, centre, skyward, V3.mk.injEq]
    refine ⟨by ring, by ring, by ring⟩

/-- **C88**: with a look-at value of 0 a camera looks straight down, with 100 along the table. -/
theorem C88_straight (s : ViewSettings ℝ) (b : TableBounds ℝ) :
    (s.inclination = 0 → forward (ViewCamera.of s b) = ⟨0, -1, 0⟩) ∧
    (s.inclination = 100 → forward (ViewCamera.of s b) = ⟨0, 0, -1⟩) := by
  obtain ⟨-, h0, -⟩ := C88_view s b
  rw [h0]
  constructor
  · intro h
    have e : lookAngle s.inclination = Real.pi / 2 := by unfold lookAngle; rw [h]; ring
    rw [e]
    simp
  · intro h
    have e : lookAngle s.inclination = 0 := by unfold lookAngle; rw [h]; ring
    rw [e]
    simp

/-- **C88**: the directions of the camera are at right angles to each other. -/
theorem C88_axes (s : ViewSettings ℝ) (b : TableBounds ℝ) :
    let c := ViewCamera.of s b
    scalar (forward c) (rightward c) = 0 ∧ scalar (forward c) (upward c) = 0 ∧ scalar (rightward c) (upward c) = 0 ∧
      scalar (forward c) (forward c) = 1 := by
  obtain ⟨-, h0, -, h2, h3, -⟩ := C88_view s b
  intro c
  show scalar (forward (ViewCamera.of s b)) (rightward (ViewCamera.of s b)) = 0 ∧
    scalar (forward (ViewCamera.of s b)) (upward (ViewCamera.of s b)) = 0 ∧
    scalar (rightward (ViewCamera.of s b)) (upward (ViewCamera.of s b)) = 0 ∧
    scalar (forward (ViewCamera.of s b)) (forward (ViewCamera.of s b)) = 1
  rw [h0, h2, h3]
  have := Real.sin_sq_add_cos_sq (lookAngle s.inclination)
  unfold scalar
  dsimp only
  refine ⟨by ring, by ring, by ring, by nlinarith⟩

/-- the same settings with another y offset -/
def ViewSettings.withOffsetY (s : ViewSettings ℝ) (y : ℝ) : ViewSettings ℝ := { s with offset_y := y }

/-- **C88, a finding**: in the mode Legacy the y offset is said to move the camera up on the screen, but it does not move
it at right angles to its view: with a look-at value of 50 (an angle of 45 degrees) it only moves it away from the
table. -/
theorem C88_offset_counterexample (s : ViewSettings ℝ) (b : TableBounds ℝ) (hm : s.layout_mode = .Legacy)
    (hi : s.inclination = 50) (y : ℝ) :
    (ViewCamera.of (s.withOffsetY y) b).position =
      plus (ViewCamera.of (s.withOffsetY 0) b).position (times (vpu * y) (backward (ViewCamera.of s b))) := by
  have e : lookAngle s.inclination = Real.pi / 4 := by unfold lookAngle; rw [hi]; ring
  have h1 := C88_place (s.withOffsetY y) b
  have h2 := C88_place (s.withOffsetY 0) b
  obtain ⟨-, -, b0, -⟩ := C88_view s b
  obtain ⟨-, -, b1, r1, -⟩ := C88_view (s.withOffsetY y) b
  obtain ⟨-, -, b2, r2, -⟩ := C88_view (s.withOffsetY 0) b
  rw [h1, h2, b0, b1, b2, r1, r2]
  unfold ViewSettings.withOffsetY
  dsimp only
  rw [hm, e]
  have hd : ∀ y, viewDistance { s with offset_y := y } b = viewDistance s b := fun _ => rfl
  rw [hm] at hd
  rw [hd, hd, Real.sin_pi_div_four, Real.cos_pi_div_four]
  simp only [plus, times, V3.mk.injEq]
  refine ⟨by ring, by ring, by ring⟩

/-! ### The distance -/

theorem foldl_max_spec : ∀ (l : List ℝ) (a : ℝ), l.foldl max a ∈ a :: l ∧ ∀ x ∈ a :: l, x ≤ l.foldl max a
  | [], a => ⟨List.mem_cons_self, fun x hx => by rcases List.mem_cons.1 hx with rfl | h; exact le_refl _; cases h⟩
  | b :: l, a => by
    obtain ⟨h1, h2⟩ := foldl_max_spec l (max a b)
    rw [List.foldl_cons]
    constructor
    · rcases List.mem_cons.1 h1 with h | h
      · rw [h]
        rcases max_choice a b with e | e <;> rw [e] <;> simp
      · exact List.mem_cons_of_mem _ (List.mem_cons_of_mem _ h)
    · intro x hx
      have h0 := h2 (max a b) List.mem_cons_self
      rcases List.mem_cons.1 hx with rfl | hx
      · exact le_trans (le_max_left _ _) h0
      · rcases List.mem_cons.1 hx with rfl | hx
        · exact le_trans (le_max_right _ _) h0
        · exact h2 x (List.mem_cons_of_mem _ hx)

theorem foldl_min_spec : ∀ (l : List ℝ) (a : ℝ), l.foldl min a ∈ a :: l ∧ ∀ x ∈ a :: l, l.foldl min a ≤ x
  | [], a => ⟨List.mem_cons_self, fun x hx => by rcases List.mem_cons.1 hx with rfl | h; exact le_refl _; cases h⟩
  | b :: l, a => by
    obtain ⟨h1, h2⟩ := foldl_min_spec l (min a b)
    rw [List.foldl_cons]
    constructor
    · rcases List.mem_cons.1 h1 with h | h
      · rw [h]
        rcases min_choice a b with e | e <;> rw [e] <;> simp
      · exact List.mem_cons_of_mem _ (List.mem_cons_of_mem _ h)
    · intro x hx
      have h0 := h2 (min a b) List.mem_cons_self
      rcases List.mem_cons.1 hx with rfl | hx
      · exact le_trans h0 (min_le_left _ _)
      · rcases List.mem_cons.1 hx with rfl | hx
        · exact le_trans h0 (min_le_right _ _)
        · exact h2 x (List.mem_cons_of_mem _ hx)

theorem rc_greatest {l : List ℝ} (h : l ≠ []) : CameraOps.greatest l ∈ l ∧ ∀ x ∈ l, x ≤ CameraOps.greatest l := by
  cases l with
  | nil => exact absurd rfl h
  | cons a l =>
    obtain ⟨h1, h2⟩ := foldl_max_spec (a :: l) a
    refine ⟨?_, fun x hx => h2 x (List.mem_cons_of_mem _ hx)⟩
    show (a :: l).foldl max a ∈ a :: l
    rcases List.mem_cons.1 h1 with h | h
    · rw [h]
      exact List.mem_cons_self
    · exact h

theorem rc_least {l : List ℝ} (h : l ≠ []) : CameraOps.least l ∈ l ∧ ∀ x ∈ l, CameraOps.least l ≤ x := by
  cases l with
  | nil => exact absurd rfl h
  | cons a l =>
    obtain ⟨h1, h2⟩ := foldl_min_spec (a :: l) a
    refine ⟨?_, fun x hx => h2 x (List.mem_cons_of_mem _ hx)⟩
    show (a :: l).foldl min a ∈ a :: l
    rcases List.mem_cons.1 h1 with h | h
    · rw [h]
      exact List.mem_cons_self
    · exact h

theorem boxCorner_iff (b : TableBounds ℝ) (p : V3 ℝ) : BoxCorner b p ↔ p ∈ b.corners b.glass_height := by
  obtain ⟨x, y, z⟩ := p
  unfold BoxCorner TableBounds.corners
  rw [rc_zero]
  simp only [List.mem_cons, V3.mk.injEq, List.not_mem_nil, or_false]
  tauto

theorem fitCorner_real (a : ℝ) (v : V3 ℝ) : fitCorner 0 a 0 v = tilted a v := by
  unfold fitCorner tilted
  simp only [rc_add, rc_sub, rc_mul, rc_sin, rc_cos, Real.sin_zero, Real.cos_zero, V3.mk.injEq]
  refine ⟨by ring, by ring, by ring⟩

theorem fitted_eq (s : ViewSettings ℝ) (b : TableBounds ℝ) :
    let t := Real.tan (s.fov / 2 * (Real.pi / 180))
    let vs := (b.corners b.glass_height).map (tilted (lookAngle s.inclination))
    fitted s b = max
      ((CameraOps.greatest (vs.map fun v => v.y + t * v.z) - CameraOps.least (vs.map fun v => v.y - t * v.z)) / (t * 2))
      ((CameraOps.greatest (vs.map fun v => v.x + t * (16 / 9) * v.z) -
        CameraOps.least (vs.map fun v => v.x - t * (16 / 9) * v.z)) / (t * (16 / 9) * 2)) := by
  intro t vs
  have ht : Real.tan (1 / 2 * (s.fov * (Real.pi / 180))) = t := by
    show _ = Real.tan _
    congr 1
    ring
  have h0 : -Real.tan (1 / 2 * (0 * (Real.pi / 180))) = 0 := by simp
  have hv : (b.corners b.glass_height).map (fitCorner 0 (lookAngle s.inclination) (-Real.tan (1 / 2 * (0 * (Real.pi / 180))))) = vs := by
    rw [h0]
    exact List.map_congr_left fun v _ => fitCorner_real _ v
  rw [← hv, ← ht]
  exact add_zero _

/-- **C88**: for a field of view of less than 180 degrees, the distance found is the least from which an eye can see
all corners of the box of the table, tilted by the angle of the camera. -/
theorem C88_fit (s : ViewSettings ℝ) (b : TableBounds ℝ) (h0 : 0 < s.fov) (h1 : s.fov < 180) :
    IsLeast {d | SeesBox b (lookAngle s.inclination) s.fov d} (fitted s b) := by
  have hpi := Real.pi_pos
  have ht : 0 < Real.tan (s.fov / 2 * (Real.pi / 180)) := by
    apply Real.tan_pos_of_pos_of_lt_pi_div_two
    · positivity
    · nlinarith
  have hfit := fitted_eq s b
  dsimp only at hfit
  generalize ha : lookAngle s.inclination = a at hfit
  unfold IsLeast lowerBounds SeesBox
  generalize htt : Real.tan (s.fov / 2 * (Real.pi / 180)) = t at hfit ht
  have hc : ∀ p, BoxCorner b p ↔ p ∈ b.corners b.glass_height := boxCorner_iff b
  obtain ⟨cs, hcs⟩ : ∃ cs, cs = b.corners b.glass_height := ⟨_, rfl⟩
  have hne : cs ≠ [] := by rw [hcs]; unfold TableBounds.corners; simp
  rw [← hcs] at hfit
  simp only [List.map_map] at hfit
  have g1 := rc_greatest (l := cs.map ((fun v => v.y + t * v.z) ∘ tilted a)) (by simpa using hne)
  have g2 := rc_least (l := cs.map ((fun v => v.y - t * v.z) ∘ tilted a)) (by simpa using hne)
  have g3 := rc_greatest (l := cs.map ((fun v => v.x + t * (16 / 9) * v.z) ∘ tilted a)) (by simpa using hne)
  have g4 := rc_least (l := cs.map ((fun v => v.x - t * (16 / 9) * v.z) ∘ tilted a)) (by simpa using hne)
  generalize CameraOps.greatest (cs.map ((fun v => v.y + t * v.z) ∘ tilted a)) = my at *
  generalize CameraOps.least (cs.map ((fun v => v.y - t * v.z) ∘ tilted a)) = ny at *
  generalize CameraOps.greatest (cs.map ((fun v => v.x + t * (16 / 9) * v.z) ∘ tilted a)) = mx at *
  generalize CameraOps.least (cs.map ((fun v => v.x - t * (16 / 9) * v.z) ∘ tilted a)) = nx at *
  constructor
  · refine ⟨(mx + nx) / 2, (my + ny) / 2, fun p hp => ?_⟩
    rw [hc, ← hcs] at hp
    have k1 := g1.2 _ (List.mem_map_of_mem hp)
    have k2 := g2.2 _ (List.mem_map_of_mem hp)
    have k3 := g3.2 _ (List.mem_map_of_mem hp)
    have k4 := g4.2 _ (List.mem_map_of_mem hp)
    simp only [Function.comp_apply] at k1 k2 k3 k4
    have d1 : (my - ny) / (t * 2) ≤ fitted s b := by rw [hfit]; exact le_max_left _ _
    have d2 : (mx - nx) / (t * (16 / 9) * 2) ≤ fitted s b := by rw [hfit]; exact le_max_right _ _
    rw [div_le_iff₀ (by positivity)] at d1 d2
    unfold InView
    dsimp only
    rw [abs_le, abs_le]
    refine ⟨⟨?_, ?_⟩, ?_, ?_⟩ <;> nlinarith
  · rintro d ⟨x, y, hd⟩
    rw [hfit]
    have hd' : ∀ p ∈ cs, InView (16 / 9 * t) t ⟨x, y, d⟩ (tilted a p) := fun p hp => hd p ((hc p).2 (hcs ▸ hp))
    unfold InView at hd'
    obtain ⟨p1, m1, e1⟩ := List.mem_map.1 g1.1
    obtain ⟨p2, m2, e2⟩ := List.mem_map.1 g2.1
    obtain ⟨p3, m3, e3⟩ := List.mem_map.1 g3.1
    obtain ⟨p4, m4, e4⟩ := List.mem_map.1 g4.1
    have k1 := abs_le.1 (hd' p1 m1).2
    have k2 := abs_le.1 (hd' p2 m2).2
    have k3 := abs_le.1 (hd' p3 m3).1
    have k4 := abs_le.1 (hd' p4 m4).1
    simp only [Function.comp_apply] at e1 e2 e3 e4
    dsimp only at k1 k2 k3 k4
    apply max_le
    · rw [div_le_iff₀ (by positivity)]
      nlinarith
    · rw [div_le_iff₀ (by positivity)]
      nlinarith

/-! ### Not the whole table -/

/-- a point of the exported scene is not above or below the picture of a camera -/
def Shows (c : ViewCamera ℝ) (p : V3 ℝ) : Prop :=
  |scalar (plus p (times (-1) c.position)) (upward c)| ≤
    Real.tan (c.yfov / 2) * scalar (plus p (times (-1) c.position)) (forward c)

/-- the settings of a new table for the desktop, without offsets -/
def newSettings : ViewSettings ℝ := ⟨.Desktop, .Legacy, 45, 0, 0, 0, 0, 1, 1⟩

/-- a table of the usual size -/
def newBounds : TableBounds ℝ := ⟨0, 0, 952, 2162, 300⟩

theorem tan_eighth : 2 / 5 < Real.tan (Real.pi / 8) ∧ Real.tan (Real.pi / 8) < 1 / 2 := by
  have h := Real.tan_two_mul (x := Real.pi / 8)
  have e : 2 * (Real.pi / 8) = Real.pi / 4 := by ring
  rw [e, Real.tan_pi_div_four] at h
  have hp : 0 < Real.tan (Real.pi / 8) :=
    Real.tan_pos_of_pos_of_lt_pi_div_two (by have := Real.pi_pos; positivity) (by have := Real.pi_pos; linarith)
  generalize Real.tan (Real.pi / 8) = t at *
  have hne : 1 - t ^ 2 ≠ 0 := by
    intro h0
    rw [h0] at h
    simp at h
  have h2 : 1 - t ^ 2 = 2 * t := by
    field_simp at h
    linarith
  constructor <;> nlinarith

/-- **C88, a finding**: the camera of the desktop does not show the whole table: with the settings of a new table, a
look-at value of 0 and without offsets, the upper left corner of the table is outside its picture. -/
theorem C88_whole_table_counterexample : ¬ Shows (ViewCamera.of newSettings newBounds) ⟨0, 0, 0⟩ := by
  obtain ⟨t1, t2⟩ := tan_eighth
  have ha : lookAngle newSettings.inclination = Real.pi / 2 := by
    show 90 * (1 - (0 : ℝ) / 100) * (Real.pi / 180) = _
    ring
  have et : newSettings.fov / 2 * (Real.pi / 180) = Real.pi / 8 := by
    show (45 : ℝ) / 2 * (Real.pi / 180) = _
    ring
  have hfit : fitted newSettings newBounds ≤ 3000 := by
    refine (C88_fit newSettings newBounds (by show (0 : ℝ) < 45; norm_num) (by show (45 : ℝ) < 180; norm_num)).2 ?_
    refine ⟨476, -150, fun p hp => ?_⟩
    rw [et, ha]
    generalize Real.tan (Real.pi / 8) = t at *
    obtain ⟨hx, hy, hz⟩ := hp
    unfold InView tilted
    rw [Real.cos_pi_div_two, Real.sin_pi_div_two]
    have hx : p.x = 0 ∨ p.x = 952 := hx
    have hy : p.y = 0 ∨ p.y = 2162 := hy
    have hz : p.z = 0 ∨ p.z = 300 := hz
    dsimp only
    rw [abs_le, abs_le]
    rcases hx with hx | hx <;> rcases hy with hy | hy <;> rcases hz with hz | hz <;> rw [hx, hy, hz] <;>
      (refine ⟨⟨?_, ?_⟩, ?_, ?_⟩ <;> nlinarith)
  have hplace := C88_place newSettings newBounds
  obtain ⟨-, f, bk, r, u, y⟩ := C88_view newSettings newBounds
  unfold Shows
  rw [hplace, f, bk, r, u, y, ha, Real.sin_pi_div_two, Real.cos_pi_div_two]
  have ey : newSettings.fov * (Real.pi / 180) / 2 = Real.pi / 8 := by
    show (45 : ℝ) * (Real.pi / 180) / 2 = _
    ring
  rw [ey]
  have hd : viewDistance newSettings newBounds = 47 / 100 * fitted newSettings newBounds := by
    show 47 / 100 * ((1 + 1) / 2) * fitted newSettings newBounds = _
    ring
  rw [hd]
  generalize fitted newSettings newBounds = d at *
  generalize Real.tan (Real.pi / 8) = t at *
  simp only [newSettings, newBounds, plus, times, scalar, centre, vpu]
  rw [not_le]
  rw [lt_abs]
  left
  nlinarith

end
/-! ### The settings of a table -/

/-- a field of view as it is used: at least one degree, and one degree if it is no number -/
def UsedFov (fov used : F32) : Prop :=
  used.isNaN = false ∧ ieeeLt used f32One = false ∧ (fov.isNaN = false → ieeeLt fov f32One = false → used = fov) ∧
    (fov.isNaN = true ∨ ieeeLt fov f32One = true → used = f32One)

theorem usedFov (sin cos : F32 → F32) (pow : F32 → F32 → F32) (fov : F32) :
    letI := ieee sin cos pow
    UsedFov fov (Arith.fmax fov f32One) := by
  show UsedFov fov (if fov.isNaN then f32One else if F32.isNaN f32One then fov else if ieeeLt fov f32One then f32One else fov)
  have h1 : F32.isNaN f32One = false := by decide
  have h2 : ieeeLt f32One f32One = false := by decide +kernel
  unfold UsedFov
  rw [h1]
  cases hn : fov.isNaN
  · cases hl : ieeeLt fov f32One <;> simp [hn, hl, h1, h2]
  · simp [h1, h2]

/-- **C88**: there are three cameras, for the desktop, for full screen and for the full single screen. Each is made of
the settings of its own view, the mode Legacy if there is none, and a field of view of at least one degree; the full
single screen has defaults for what is not given: 45, 52, 0, 30, -50, 1.2 and 1.1. -/
theorem C88_settings (sin cos : F32 → F32) (pow : F32 → F32 → F32) (tan : F32 → F32) (vpx : VPX) :
    letI := ieee sin cos pow
    letI := f32Camera tan
    let g := vpx.gamedata
    ∃ d u f : F32, UsedFov g.bg_fov_desktop d ∧ UsedFov g.bg_fov_fullscreen u ∧
      UsedFov (g.bg_fov_full_single_screen.getD 0x42340000) f ∧
      viewCameras tan vpx =
        ([⟨.Desktop, g.bg_view_mode_desktop.getD .Legacy, d, g.bg_inclination_desktop, g.bg_offset_x_desktop,
            g.bg_offset_y_desktop, g.bg_offset_z_desktop, g.bg_scale_x_desktop, g.bg_scale_y_desktop⟩,
          ⟨.Fullscreen, g.bg_view_mode_fullscreen.getD .Legacy, u, g.bg_inclination_fullscreen, g.bg_offset_x_fullscreen,
            g.bg_offset_y_fullscreen, g.bg_offset_z_fullscreen, g.bg_scale_x_fullscreen, g.bg_scale_y_fullscreen⟩,
          ⟨.Fss, g.bg_view_mode_full_single_screen.getD .Legacy, f, g.bg_inclination_full_single_screen.getD 0x42500000,
            g.bg_offset_x_full_single_screen.getD 0, g.bg_offset_y_full_single_screen.getD 0x41f00000,
            g.bg_offset_z_full_single_screen.getD 0xc2480000, g.bg_scale_x_full_single_screen.getD 0x3f99999a,
            g.bg_scale_y_full_single_screen.getD 0x3f8ccccd⟩] : List (ViewSettings F32)).map
        fun s =>
          let c := ViewCamera.of s
            { left := g.left, top := g.top, right := g.right, bottom := g.bottom, glass_height := g.glass_top_height }
          { name := match s.mode with
              | .Desktop => "DesktopCamera".toList
              | .Fullscreen => "FullscreenCamera".toList
              | .Fss => "FssCamera".toList
            position := { x := c.position.x, y := c.position.y, z := c.position.z }
            rotation := c.rotation, yfov := c.yfov, znear := c.znear, zfar := c.zfar } :=
  ⟨_, _, _, usedFov sin cos pow _, usedFov sin cos pow _, usedFov sin cos pow _, rfl⟩

/-- **C88**: an exported file has exactly these cameras, each in a node directly below the table with its name, position
and rotation, and it shows from 0.01 to 100 metres. -/
theorem C88_in_file [Arith] {E : GltfEnv} {tan : F32 → F32} {fuel : Nat} {o : GltfOptions} {vpx : VPX} {f : Gltf.File}
    {bin : Bytes} (h : gltfDocument (E.withCameras tan) fuel o vpx = .ok (f, bin)) :
    f.cameras.length = 3 ∧ ∃ root r children, f.scenes[f.scene]? = some [root] ∧ f.nodes[root]? = some r ∧
      r.children = some children ∧
      ∀ (i : Nat) (name : Str), ["DesktopCamera".toList, "FullscreenCamera".toList, "FssCamera".toList][i]? = some name →
        ∃ c ∈ children, ∃ n view camera, f.nodes[c]? = some n ∧ n.camera = some i ∧ n.name = name ∧
          (viewCameras tan vpx)[i]? = some camera ∧ n.translation = some (vec3Nums camera.position) ∧
          n.rotation = some ([camera.rotation.1, camera.rotation.2.1, camera.rotation.2.2.1, camera.rotation.2.2.2].map num) ∧
          n.scale = none ∧ f.cameras[i]? = some view ∧ view.name = name ∧ view.type = "perspective".toList ∧
          view.yfov = num camera.yfov ∧ view.znear = some 0x3c23d70a ∧ view.zfar = some 0x42c80000 := by
  obtain ⟨root, r, children, h1, h2, -, -, h3, -, h4, h5⟩ := C80_root h
  refine ⟨h4, root, r, children, h1, h2, h3, fun i name hi => ?_⟩
  have key : ∃ camera, (viewCameras tan vpx)[i]? = some camera ∧ camera.name = name ∧
      camera.znear = 0x3c23d70a ∧ camera.zfar = 0x42c80000 := by
    match i, hi with
    | 0, hi => exact ⟨_, rfl, Option.some.inj hi, rfl, rfl⟩
    | 1, hi => exact ⟨_, rfl, Option.some.inj hi, rfl, rfl⟩
    | 2, hi => exact ⟨_, rfl, Option.some.inj hi, rfl, rfl⟩
    | n + 3, hi => cases hi
  obtain ⟨camera, k1, rfl, k3, k4⟩ := key
  obtain ⟨c, hc, n, view, a1, a2, a3, -, a4, a5, a6, a7, a8, a9, b1, b2, b3⟩ := h5 i camera k1
  refine ⟨c, hc, n, view, camera, a1, a2, a3, k1, a4, a5, a6, a7, a8, a9, b1, ?_, ?_⟩
  · rw [b2, k3]; rfl
  · rw [b3, k4]; rfl

/-! ### Examples -/

/-- the settings of a new table are those of `C88_centre` and, at 45 degrees, of `C88_fit` -/
example : newSettings.offset_x = 0 ∧ newSettings.offset_y = 0 ∧ newSettings.offset_z = 0 ∧ 0 < newSettings.fov ∧
    newSettings.fov < 180 := by
  refine ⟨rfl, rfl, rfl, ?_, ?_⟩
  · show (0 : ℝ) < 45
    norm_num
  · show (45 : ℝ) < 180
    norm_num

/-- settings with a look-at value of 50 in the mode Legacy -/
example : ∃ s : ViewSettings ℝ, s.layout_mode = .Legacy ∧ s.inclination = 50 :=
  ⟨⟨.Fss, .Legacy, 45, 50, 0, 30, -50, 1, 1⟩, rfl, rfl⟩

section
attribute [local instance] ieeeExact

/-- a file with the three cameras; the tangent is not -/
example : ((gltfDocument (gltfSample.withCameras id) 10 .default gltfTable).toOption.map fun r =>
    (r.1.cameras.map (·.name), r.1.nodes.filterMap fun n => n.camera.map fun c => (n.name, c))) =
    some (["DesktopCamera".toList, "FullscreenCamera".toList, "FssCamera".toList],
      [("DesktopCamera".toList, 0), ("FullscreenCamera".toList, 1), ("FssCamera".toList, 2)]) := by decide +kernel

/-- a field of view of zero is used as one degree -/
example : (desktopSettings { GameData.default with bg_fov_desktop := 0 }).fov = f32One ∧
    (fssSettings GameData.default).fov = 0x42340000 := by decide +kernel

end

end Vpin
