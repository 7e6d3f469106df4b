import Verif.Lemmas.RubberMesh
import Verif.Props.Curve
/-
C64: the mesh of a rubber; C65: the normals of generated meshes.

`points` are the points of the closed curve through the drag points of the rubber (C61).
-/
namespace Vpin
open Arith

section
variable [Arith]

/-- A tube around the closed curve `points`: around every point a ring of `S` vertices (`ringPlace`),
and between neighbouring vertices of neighbouring rings two triangles; vertex `j` of ring `i` has number
`i * S + j`. The last ring is joined to the first, and the last vertex of a ring to its first. -/
structure Tube (points : List RenderVertex2D) (height thickness : F32) (S : Nat) (vs : List Vertex)
    (ts : List Tri) : Prop where
  vertex_count : vs.length = points.length * S
  face_count : ts.length = 2 * (points.length * S)
  faces : ∀ i < points.length, ∀ j < S,
    ts[2 * (i * S + j)]? =
      some (i * S + j, i * S + (j + 1) % S, (i + 1) % points.length * S + j) ∧
    ts[2 * (i * S + j) + 1]? = some ((i + 1) % points.length * S + (j + 1) % S,
      (i + 1) % points.length * S + j, i * S + (j + 1) % S)
  places : ∀ i p, points[i]? = some p → ∀ j < S, ∃ v, vs[i * S + j]? = some v ∧
    v.place = ringPlace points height thickness S i j p ∧
    v.tu = ofNat i *ᶠ (f32One /ᶠ ofNat points.length) ∧
    v.tv = (ofNat j +ᶠ v.tu) *ᶠ (f32One /ᶠ ofNat S)

/-- `vs` are the vertices `raw` with their normals computed from the triangles, moved so that the middle
of their box is at `center` (with respect to the first two coordinates), and turned -/
def PlacedAt (r : Rubber) (raw : List Vertex) (ts : List Tri) (vs : List Vertex) (center : Vec3) : Prop :=
  vs.length = raw.length ∧
  center = ⟨middle (raw.map (·.x)), middle (raw.map (·.y)), r.height⟩ ∧
  ∀ (k : Nat) v, raw[k]? = some v → ∃ w, vs[k]? = some w ∧ w.tu = v.tu ∧ w.tv = v.tv ∧
    w.place = turn (r.rot_x, r.rot_y, r.rot_z)
      (v.x -ᶠ center.x, v.y -ᶠ center.y, v.z -ᶠ middle (raw.map (·.z))) ∧
    ∃ n, n = meanDirection (normalsAround raw ts k) ∧
      (w.nx, w.ny, w.nz) = turn (r.rot_x, r.rot_y, r.rot_z) (n.x, n.y, n.z)

theorem ringsOf_count (points : List RenderVertex2D) (height thickness : F32) (S : Nat) :
    (ringsOf points height thickness S points.length).length = points.length * S := by
  unfold ringsOf
  rw [flatMap_range_length (ringAt_length points height thickness S), Nat.mul_comm]

theorem ringsOf_tube (points : List RenderVertex2D) (height thickness : F32) (S : Nat) :
    Tube points height thickness S (ringsOf points height thickness S points.length)
      (torusTris points.length S) where
  vertex_count := ringsOf_count points height thickness S
  face_count := torusTris_length _ _
  faces := fun _ hi _ hj => torus_get hi hj
  places := by
    intro i p hp j hj
    have hi : i < points.length := (List.getElem?_eq_some_iff.1 hp).1
    have := flatMap_range_get (ringAt_length points height thickness S) hi hj
    rw [ringsOf, Nat.mul_comm i S, this, ringAt, hp]
    dsimp only
    rw [ringOf, List.getElem?_map, List.getElem?_range hj]
    exact ⟨_, rfl, rfl, rfl, rfl⟩

/-- **C64**: the mesh of a rubber. Without thickness, and with less than two drag points, there is none;
else it is a tube around the curve, placed and turned as the rubber is. -/
theorem C64_rubber {fuel : Nat} {r : Rubber} {detail : UInt32} {points : List RenderVertex2D}
    (hp : getRgVertex2D fuel r.drag_points (detailLevelToAccuracy fTen) true = .ok points) :
    ((r.thickness = 0 ∨ r.drag_points.length < 2) → buildRubberMesh fuel r detail = .ok none) ∧
    (r.thickness ≠ 0 → 2 ≤ r.drag_points.length → points ≠ [] →
      ∃ raw m center, buildRubberMesh fuel r detail = .ok (some (m, center)) ∧
        Tube points (r.hit_height.getD r.height) (i32ToF32 r.thickness)
          (ringSegments detail r.static_rendering) raw m.tris ∧
        PlacedAt r raw m.tris m.vertices center) := by
  constructor
  · intro h
    unfold buildRubberMesh
    by_cases ht : r.thickness = 0
    · rw [if_pos ht]; rfl
    · rw [if_neg ht, if_pos (h.resolve_left ht)]; rfl
  · intro ht h2 hne
    have hg : rubberGenerate fuel r detail = .ok (some
        ⟨computeNormals (ringsOf points (r.hit_height.getD r.height) (i32ToF32 r.thickness)
            (ringSegments detail r.static_rendering) points.length)
            (torusTris points.length (ringSegments detail r.static_rendering)),
          torusTris points.length (ringSegments detail r.static_rendering)⟩) := by
      have hl := middlePoints_length hne
      have hpos : 0 < points.length := List.length_pos_iff.2 hne
      unfold rubberGenerate
      rw [rubberMiddlePoints_eq hp]
      simp only [bind, Except.bind]
      rw [if_neg (by omega), hl, Nat.add_sub_cancel, if_neg (by omega)]
      have := rings_fold points (r.hit_height.getD r.height) (i32ToF32 r.thickness)
        (ringSegments detail r.static_rendering) points.length (Nat.le_refl _)
      simp only [bind, Except.bind] at this
      rw [this]
      simp only [rubberTris_eq]
      rfl
    unfold buildRubberMesh
    rw [if_neg ht, if_neg (by omega), hg]
    simp only [bind, Except.bind, pure, Except.pure]
    refine ⟨ringsOf points (r.hit_height.getD r.height) (i32ToF32 r.thickness)
      (ringSegments detail r.static_rendering) points.length, _, _, rfl,
      ringsOf_tube points _ _ _, ?_⟩
    rw [computeNormals_eq _ _ (by rw [ringsOf_count]; exact torusTris_inRange _ _), applyRotation_eq]
    generalize ringsOf points (r.hit_height.getD r.height) (i32ToF32 r.thickness)
      (ringSegments detail r.static_rendering) points.length = raw
    generalize torusTris points.length (ringSegments detail r.static_rendering) = ts
    have hm : ∀ f : Vertex → F32, (∀ v n, f (Vertex.withNormal v n) = f v) →
        ((raw.mapIdx fun k v => v.withNormal (meanDirection (normalsAround raw ts k))).map f) =
          raw.map f := by
      intro f hf
      apply List.ext_getElem?
      intro k
      rw [List.getElem?_map, List.getElem?_map, List.getElem?_mapIdx]
      cases raw[k]? <;> simp [hf]
    have hmid : rubberMiddle (raw.mapIdx fun k v => v.withNormal (meanDirection (normalsAround raw ts k))) =
        ⟨middle (raw.map (·.x)), middle (raw.map (·.y)), middle (raw.map (·.z))⟩ := by
      rw [rubberMiddle_eq, hm _ fun _ _ => rfl, hm _ fun _ _ => rfl, hm _ fun _ _ => rfl]
    rw [hmid]
    refine ⟨by simp, rfl, ?_⟩
    intro k v hv
    rw [List.getElem?_map, List.getElem?_mapIdx, hv]
    exact ⟨_, rfl, rfl, rfl, rfl, _, rfl, rfl⟩

/-- the curve of a rubber whose mesh is built -/
theorem rubber_points {fuel r detail x} (h : buildRubberMesh fuel r detail = .ok (some x)) :
    ∃ points, getRgVertex2D fuel r.drag_points (detailLevelToAccuracy fTen) true = .ok points ∧
      r.thickness ≠ 0 ∧ 2 ≤ r.drag_points.length ∧ points ≠ [] := by
  unfold buildRubberMesh at h
  by_cases ht : r.thickness = 0
  · rw [if_pos ht] at h; cases h
  by_cases h2 : r.drag_points.length < 2
  · rw [if_neg ht, if_pos h2] at h; cases h
  rw [if_neg ht, if_neg h2] at h
  cases hp : getRgVertex2D fuel r.drag_points (detailLevelToAccuracy fTen) true with
  | error e =>
    unfold rubberGenerate rubberMiddlePoints at h
    rw [hp] at h
    cases h
  | ok points =>
    refine ⟨points, rfl, ht, by omega, ?_⟩
    rintro rfl
    unfold rubberGenerate at h
    rw [rubberMiddlePoints_eq hp] at h
    cases h

theorem tube_tris {points : List RenderVertex2D} {height thickness : F32} {S : Nat} {vs : List Vertex}
    {ts : List Tri} (h : Tube points height thickness S vs ts) : ts = torusTris points.length S := by
  apply List.ext_getElem?
  intro k
  by_cases hk : k < 2 * (points.length * S)
  · have hS : 0 < S := by
      rcases Nat.eq_zero_or_pos S with h0 | h0
      · rw [h0] at hk; omega
      · exact h0
    have hi : k / 2 / S < points.length := by
      apply Nat.div_lt_of_lt_mul
      rw [Nat.mul_comm]; omega
    have hj : k / 2 % S < S := Nat.mod_lt _ hS
    have e : k / 2 / S * S + k / 2 % S = k / 2 := by
      rw [Nat.mul_comm]; exact Nat.div_add_mod _ _
    have a := h.faces _ hi _ hj
    have b := torus_get (R := points.length) hi hj
    rw [e] at a b
    rcases Nat.mod_two_eq_zero_or_one k with h0 | h0
    · rw [show k = 2 * (k / 2) by omega, a.1, b.1]
    · rw [show k = 2 * (k / 2) + 1 by omega, a.2, b.2]
  · rw [List.getElem?_eq_none (by rw [h.face_count]; omega),
      List.getElem?_eq_none (by rw [torusTris_length]; omega)]

/-- **C64**: all faces of a rubber refer to vertices it has, and every edge is used as often in one
direction as in the other: there is no hole. -/
theorem C64_indices {fuel r detail m center}
    (h : buildRubberMesh fuel r detail = .ok (some (m, center))) :
    InRange m.vertices.length m.tris ∧ Balanced (triEdges m.tris) := by
  obtain ⟨points, hp, ht, h2, hne⟩ := rubber_points h
  obtain ⟨raw, m', c', hr, htube, hplaced⟩ := (C64_rubber (detail := detail) hp).2 ht h2 hne
  rw [hr] at h
  cases h
  rw [hplaced.1, htube.vertex_count, tube_tris htube]
  exact ⟨torusTris_inRange _ _, torusTris_balanced _ _⟩

/-- **C64**: around a curve with at least three points it is a closed surface. -/
theorem C64_closed {fuel r detail m center points}
    (hp : getRgVertex2D fuel r.drag_points (detailLevelToAccuracy fTen) true = .ok points)
    (h : buildRubberMesh fuel r detail = .ok (some (m, center))) (h3 : 3 ≤ points.length)
    (hS : 3 ≤ ringSegments detail r.static_rendering) : ClosedSurface m.tris := by
  obtain ⟨points', hp', ht, h2, hne⟩ := rubber_points h
  rw [hp] at hp'
  cases hp'
  obtain ⟨raw, m', c', hr, htube, hplaced⟩ := (C64_rubber (detail := detail) hp).2 ht h2 hne
  rw [hr] at h
  cases h
  rw [tube_tris htube]
  exact torus_closed h3 hS

/-- **C64**: building the mesh of a rubber fails only if the curve is never finished (C61), or if it has
no points: every drag point coincides with the next one. -/
theorem C64_failure {fuel r detail e} (h : buildRubberMesh fuel r detail = .error e) :
    e = .fuel ∨ (e = .panic ∧ 2 ≤ r.drag_points.length ∧
      ∀ pq ∈ curvePairs r.drag_points true, coincide2D pq.1 pq.2 = true) := by
  cases hp : getRgVertex2D fuel r.drag_points (detailLevelToAccuracy fTen) true with
  | error e' =>
    have := C61_no_panic hp
    subst this
    left
    unfold buildRubberMesh at h
    by_cases ht : r.thickness = 0
    · rw [if_pos ht] at h; cases h
    by_cases h2 : r.drag_points.length < 2
    · rw [if_neg ht, if_pos h2] at h; cases h
    rw [if_neg ht, if_neg h2] at h
    unfold rubberGenerate rubberMiddlePoints at h
    rw [hp] at h
    cases h
    rfl
  | ok points =>
    by_cases h1 : r.thickness = 0 ∨ r.drag_points.length < 2
    · rw [(C64_rubber (detail := detail) hp).1 h1] at h; cases h
    · have h1' : r.thickness ≠ 0 ∧ ¬ r.drag_points.length < 2 := by
        exact ⟨fun h => h1 (Or.inl h), fun h => h1 (Or.inr h)⟩
      by_cases hne : points = []
      · subst hne
        right
        have h2 : 2 ≤ r.drag_points.length := by omega
        refine ⟨?_, h2, ?_⟩
        · unfold buildRubberMesh at h
          rw [if_neg h1'.1, if_neg h1'.2] at h
          unfold rubberGenerate at h
          rw [rubberMiddlePoints_eq hp] at h
          cases h
          rfl
        · have hc := (C61_control_points h2 hp).1
          intro pq hpq
          by_cases hco : coincide2D pq.1 pq.2 = true
          · exact hco
          · exfalso
            have : pq ∈ (curvePairs r.drag_points true).filter fun (p, q) => !coincide2D p q := by
              apply List.mem_filter.2
              exact ⟨hpq, by simpa using hco⟩
            have := List.mem_map_of_mem (f := fun (x : DragPoint × DragPoint) =>
              ({ x := x.1.x, y := x.1.y, smooth := x.1.smooth, control_point := true } : RenderVertex2D)) this
            rw [List.filter_nil] at hc
            have hc' := hc.symm
            rw [List.map_eq_nil_iff] at hc'
            rw [hc'] at this
            cases this
      · obtain ⟨raw, m, c, hr, -⟩ := (C64_rubber (detail := detail) hp).2 h1'.1 (by omega) hne
        rw [hr] at h; cases h

/-- **C65**: the normals of a generated mesh. Every vertex keeps its place and texture; its normal is the
mean direction of the triangles around it. -/
theorem C65_normals {vs : List Vertex} {ts : List Tri} (h : InRange vs.length ts) :
    (computeNormals vs ts).length = vs.length ∧
    ∀ (k : Nat) v, vs[k]? = some v → ∃ w, (computeNormals vs ts)[k]? = some w ∧ w.place = v.place ∧
      w.tu = v.tu ∧ w.tv = v.tv ∧
      Vec3.mk w.nx w.ny w.nz = meanDirection (normalsAround vs ts k) := by
  rw [computeNormals_eq vs ts h]
  refine ⟨by simp, ?_⟩
  intro k v hv
  rw [List.getElem?_mapIdx, hv]
  exact ⟨_, rfl, rfl, rfl, rfl, rfl⟩

end

/-! ### Examples and counterexamples, in IEEE arithmetic -/

section
attribute [local instance] ieeeExact

/-- the detail levels of a table are 0 to 10: a ring has at least six vertices -/
theorem C64_ring_segments (detail : UInt32) (h : detail ≤ 10) (st : Bool) :
    6 ≤ ringSegments detail st ∧ ringSegments detail st ≤ 13 := by
  have key : ∀ n : Fin 11, ∀ st, 6 ≤ ringSegments (UInt32.ofNat n.val) st ∧
      ringSegments (UInt32.ofNat n.val) st ≤ 13 := by
    decide +kernel
  have hn : detail.toNat < 11 := by
    have := UInt32.le_iff_toNat_le.1 h
    simpa [Nat.lt_succ_iff] using this
  have := key ⟨detail.toNat, hn⟩ st
  simpa using this

/-- a rubber along the rounded square of C61 -/
def squareRubber : Rubber := { Rubber.default with drag_points := roundedSquare }

/-- the curve has eight points, and the mesh of the rubber 96 vertices and 192 faces -/
theorem squareRubber_mesh :
    ((getRgVertex2D 6 squareRubber.drag_points (detailLevelToAccuracy fTen) true).toOption.map
        List.length = some 8) ∧
    ((buildRubberMesh 6 squareRubber 10).toOption.bind fun r => r.map fun (m, _) =>
      (m.vertices.length, m.tris.length)) = some (8 * 12, 2 * (8 * 12)) := by
  decide +kernel

/-- the hypotheses of `C64_rubber` and `C64_closed` hold for it -/
example : ∃ points m center,
    getRgVertex2D 6 squareRubber.drag_points (detailLevelToAccuracy fTen) true = .ok points ∧
    squareRubber.thickness ≠ 0 ∧ 2 ≤ squareRubber.drag_points.length ∧ points ≠ [] ∧
    buildRubberMesh 6 squareRubber 10 = .ok (some (m, center)) ∧ 3 ≤ points.length ∧
    3 ≤ ringSegments 10 squareRubber.static_rendering := by
  have h1 := squareRubber_mesh.1
  cases hp : getRgVertex2D 6 squareRubber.drag_points (detailLevelToAccuracy fTen) true with
  | error e => rw [hp] at h1; cases h1
  | ok points =>
    rw [hp] at h1
    have hl : points.length = 8 := by simpa [Except.toOption] using h1
    have hne : points ≠ [] := by intro h; rw [h] at hl; cases hl
    obtain ⟨raw, m, c, hm, -⟩ := (C64_rubber (detail := 10) hp).2 (by decide) (by decide) hne
    exact ⟨points, m, c, rfl, by decide, by decide, hne, hm, by omega,
      Nat.le_trans (by decide) (C64_ring_segments 10 (by decide) _).1⟩

/-- a turned vertex: 90 degrees about the third axis -/
example : turn (0, 0, 0x42b40000) (f32One, fTwo, fThree) = (fTwo.neg, f32One, fThree) := by
  decide +kernel

/-- the normals of a square: both triangles face down -/
example : let vs : List Vertex := [(0, 0), (0, f32One), (f32One, f32One), (f32One, 0)].map fun (x, y) =>
      ⟨x, y, 0, 0, 0, 0, 0, 0⟩
    let ts : List Tri := [(0, 1, 2), (0, 2, 3)]
    InRange vs.length ts ∧ meanDirection (normalsAround vs ts 0) = ⟨0, 0, f32One.neg⟩ := by
  refine ⟨?_, by decide +kernel⟩
  unfold InRange
  decide

/-- **A rubber whose drag points coincide makes the code panic**, though it has two drag points and a
thickness, which are what is checked. -/
theorem C64_no_panic_counterexample :
    ∃ r : Rubber, r.thickness ≠ 0 ∧ 2 ≤ r.drag_points.length ∧
      ∀ detail, buildRubberMesh 1 r detail = .error .panic := by
  refine ⟨{ Rubber.default with drag_points := [dragAt fTen fTen false, dragAt fTen fTen true] },
    by decide, by decide, ?_⟩
  intro detail
  have hp : getRgVertex2D 1 [dragAt fTen fTen false, dragAt fTen fTen true]
      (detailLevelToAccuracy fTen) true = .ok [] := by decide +kernel
  unfold buildRubberMesh
  rw [if_neg (by decide), if_neg (by decide)]
  unfold rubberGenerate
  rw [rubberMiddlePoints_eq hp]
  rfl

/-- so does every table with such a rubber, at any amount of fuel -/
example : ∀ pq ∈ curvePairs [dragAt fTen fTen false, dragAt fTen fTen true] true,
    coincide2D pq.1 pq.2 = true := by decide +kernel

end
end Vpin
