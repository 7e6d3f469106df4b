import Verif.Lemmas.RampMesh
import Verif.Lemmas.Strip
import Verif.Props.Curve
/-
C66: the mesh of a flat ramp; C67: the mesh of a ramp of wires.

`vv` are the points of the curve through the drag points of the ramp (C61).
-/
namespace Vpin
open Arith

section
variable [Arith]

/-- A strip along the curve: two vertices at every point, as `pair` says, with the normals of the
triangles around them, and two triangles between neighbouring points. -/
structure Strip (vv : List RenderVertex3D) (pair : Nat → RenderVertex3D → Vertex × Vertex) (m : GenMesh) :
    Prop where
  vertex_count : m.vertices.length = 2 * vv.length
  face_count : m.tris.length = 2 * (vv.length - 1)
  faces : ∀ i < vv.length - 1, m.tris[2 * i]? = some (2 * i, 2 * i + 1, 2 * i + 3) ∧
    m.tris[2 * i + 1]? = some (2 * i, 2 * i + 3, 2 * i + 2)
  places : ∀ (i : Nat) q, vv[i]? = some q → ∃ v w, m.vertices[2 * i]? = some v ∧
    m.vertices[2 * i + 1]? = some w ∧
    v.place = (pair i q).1.place ∧ (v.tu, v.tv) = ((pair i q).1.tu, (pair i q).1.tv) ∧
    w.place = (pair i q).2.place ∧ (w.tu, w.tv) = ((pair i q).2.tu, (pair i q).2.tv)
  normals : ∀ (k : Nat) v, m.vertices[k]? = some v →
    Vec3.mk v.nx v.ny v.nz = meanDirection (normalsAround m.vertices m.tris k)

/-- `m` consists of the given parts, one after the other -/
inductive Stacked : List GenMesh → GenMesh → Prop
  | one (m : GenMesh) : Stacked [m] m
  | more {parts m} (p : GenMesh) : Stacked parts m →
      Stacked (parts ++ [p]) ⟨m.vertices ++ p.vertices,
        m.tris ++ p.tris.map (Tri.map (· + m.vertices.length))⟩

theorem faceNormal_places {vs ws : List Vertex} (h : vs.map Vertex.place = ws.map Vertex.place) (t : Tri) :
    faceNormal vs t = faceNormal ws t := by
  have hk : ∀ k : Nat, vs[k]?.map Vertex.place = ws[k]?.map Vertex.place := by
    intro k
    rw [← List.getElem?_map, ← List.getElem?_map, h]
  have hs : ∀ {k : Nat} {v w : Vertex}, vs[k]? = some v → ws[k]? = some w →
      v.x = w.x ∧ v.y = w.y ∧ v.z = w.z := by
    intro k v w hv hw
    have := hk k
    rw [hv, hw] at this
    simpa [Vertex.place] using this
  have hn : ∀ k : Nat, vs[k]? = none ↔ ws[k]? = none := by
    intro k
    have := hk k
    cases hv : vs[k]? <;> cases hw : ws[k]? <;> rw [hv, hw] at this <;> simp at this ⊢
  unfold faceNormal
  cases h1 : vs[t.1]? with
  | none => rw [(hn _).1 h1]
  | some a =>
    cases h1' : ws[t.1]? with
    | none => rw [(hn _).2 h1'] at h1; cases h1
    | some a' =>
      cases h2 : vs[t.2.1]? with
      | none => rw [(hn _).1 h2]
      | some b =>
        cases h2' : ws[t.2.1]? with
        | none => rw [(hn _).2 h2'] at h2; cases h2
        | some b' =>
          cases h3 : vs[t.2.2]? with
          | none => rw [(hn _).1 h3]
          | some c =>
            cases h3' : ws[t.2.2]? with
            | none => rw [(hn _).2 h3'] at h3; cases h3
            | some c' =>
              dsimp only
              obtain ⟨a1, a2, a3⟩ := hs h1 h1'
              obtain ⟨b1, b2, b3⟩ := hs h2 h2'
              obtain ⟨c1, c2, c3⟩ := hs h3 h3'
              rw [a1, a2, a3, b1, b2, b3, c1, c2, c3]

theorem normalsAround_places {vs ws : List Vertex} (h : vs.map Vertex.place = ws.map Vertex.place)
    (ts : List Tri) (k : Nat) : normalsAround vs ts k = normalsAround ws ts k := by
  unfold normalsAround
  congr 1
  funext t
  rw [faceNormal_places h]

theorem stripMesh_eq {vv : List RenderVertex3D} {pair : Nat → RenderVertex3D → Vertex × Vertex}
    {f : Nat → Res (List Vertex)}
    (h : ∀ (i : Nat) q, vv[i]? = some q → f i = .ok [(pair i q).1, (pair i q).2]) :
    ∃ m, stripMesh vv.length f = .ok m ∧ Strip vv pair m ∧ m.tris = stripTris vv.length := by
  have hm : (List.range vv.length).mapM f =
      .ok ((List.range vv.length).map fun i => match vv[i]? with
        | some q => [(pair i q).1, (pair i q).2]
        | none => []) := by
    apply mapM_all_ok
    intro i hi
    have hi := List.mem_range.1 hi
    rw [List.getElem?_eq_getElem hi]
    exact h i _ (List.getElem?_eq_getElem hi)
  generalize hg : (fun i => match vv[i]? with
        | some q => [(pair i q).1, (pair i q).2]
        | none => []) = g at hm
  have hc : ∀ i < vv.length, (g i).length = 2 := by
    intro i hi
    rw [← hg]
    dsimp only
    rw [List.getElem?_eq_getElem hi]
    rfl
  have hlen : ((List.range vv.length).flatMap g).length = 2 * vv.length := flatMap_range_length hc
  refine ⟨⟨computeNormals ((List.range vv.length).flatMap g) (stripTris vv.length), stripTris vv.length⟩,
    ?_, ?_, rfl⟩
  · unfold stripMesh
    rw [hm]
    rfl
  have hr : InRange ((List.range vv.length).flatMap g).length (stripTris vv.length) := by
    rw [hlen]; exact (strip_inRange _).1
  refine ⟨?_, strip_length _, ?_, ?_, ?_⟩
  · rw [computeNormals_eq _ _ hr, List.length_mapIdx, hlen]
  · intro i hi
    have a := flatMap_range_get (c := 2) (f := fun i =>
      [(i * 2, i * 2 + 1, i * 2 + 3), (i * 2, i * 2 + 3, i * 2 + 2)]) (fun _ _ => rfl) hi
      (show 0 < 2 by omega)
    have b := flatMap_range_get (c := 2) (f := fun i =>
      [(i * 2, i * 2 + 1, i * 2 + 3), (i * 2, i * 2 + 3, i * 2 + 2)]) (fun _ _ => rfl) hi
      (show 1 < 2 by omega)
    refine ⟨?_, ?_⟩
    · rw [stripTris]
      exact a.trans (by rw [Nat.mul_comm i 2]; rfl)
    · rw [stripTris]
      exact b.trans (by rw [Nat.mul_comm i 2]; rfl)
  · intro i q hq
    have hi : i < vv.length := (List.getElem?_eq_some_iff.1 hq).1
    have hgi : g i = [(pair i q).1, (pair i q).2] := by rw [← hg]; dsimp only; rw [hq]
    have a := flatMap_range_get hc hi (show 0 < 2 by omega)
    have b := flatMap_range_get hc hi (show 1 < 2 by omega)
    rw [hgi] at a b
    dsimp only
    rw [computeNormals_eq _ _ hr, List.getElem?_mapIdx, List.getElem?_mapIdx]
    rw [Nat.add_zero] at a
    rw [a, b]
    exact ⟨_, _, rfl, rfl, rfl, rfl, rfl, rfl⟩
  · intro k v hv
    dsimp only at hv ⊢
    rw [computeNormals_eq _ _ hr] at hv ⊢
    have hpl : (List.mapIdx (fun k v => v.withNormal (meanDirection (normalsAround
        ((List.range vv.length).flatMap g) (stripTris vv.length) k)))
        ((List.range vv.length).flatMap g)).map Vertex.place =
        ((List.range vv.length).flatMap g).map Vertex.place := by
      apply List.ext_getElem?
      intro k
      rw [List.getElem?_map, List.getElem?_map, List.getElem?_mapIdx]
      cases ((List.range vv.length).flatMap g)[k]? <;> rfl
    rw [normalsAround_places hpl]
    rw [List.getElem?_mapIdx] at hv
    cases hk : ((List.range vv.length).flatMap g)[k]? with
    | none => rw [hk] at hv; cases hv
    | some w =>
      rw [hk] at hv
      cases hv
      rfl

theorem stacked_join {parts m} (h : Stacked parts m) (p : GenMesh) : Stacked (parts ++ [p]) (m.join p) := by
  exact Stacked.more p h

/-- **C66**: the mesh of a flat ramp: the floor, and the walls that have a height, right and left. -/
theorem C66_flat {fuel : Nat} {ramp : Ramp} {dims : TableDims} {detail : UInt32} {opacity : Bool}
    {vv : List RenderVertex3D} (hflat : ramp.ramp_type = .Flat)
    (hp : getRgVertex3D fuel ramp.drag_points (detailLevelToAccuracy fTen) = .ok vv)
    (hw : ((ramp.width_bottom ==ᶠ 0) && (ramp.width_top ==ᶠ 0)) = false) (h2 : 2 ≤ vv.length) :
    ∃ floor right left m, buildRampMesh fuel ramp dims detail opacity = .ok (some m) ∧
      Strip vv (floorAt ramp (dims.right -ᶠ dims.left, dims.bottom -ᶠ dims.top) vv) floor ∧
      Strip vv (fun i q => wallAt ramp vv (rightAt ramp vv i q) ramp.right_wall_height_visible i q) right ∧
      Strip vv (fun i q => wallAt ramp vv (leftAt ramp vv i q) ramp.left_wall_height_visible i q) left ∧
      Stacked ([floor] ++ (if 0 <ᶠ ramp.right_wall_height_visible then [right] else []) ++
        (if 0 <ᶠ ramp.left_wall_height_visible then [left] else [])) m ∧
      (∀ p ∈ [floor, right, left], p.tris = stripTris vv.length) := by
  have hnh : isHabitrail ramp = false := by simp [isHabitrail, hflat]
  have hwid := rampWidth_eq ramp true (by simp [hnh])
  have hR : ∀ (i : Nat) q, (rampPointOf ramp vv true i q).right = rightAt ramp vv i q := by
    intro i q; simp only [rampPointOf, rightAt, hwid]
  have hL : ∀ (i : Nat) q, (rampPointOf ramp vv true i q).left = leftAt ramp vv i q := by
    intro i q; simp only [rampPointOf, leftAt, hwid]
  obtain ⟨floor, hf, sf, tf⟩ := stripMesh_eq (vv := vv)
    (pair := floorAt ramp (dims.right -ᶠ dims.left, dims.bottom -ᶠ dims.top) vv)
    (f := fun i => do
      let right ← getOrPanic ((rampPointsOf ramp vv true).map (·.right) ++
        ((rampPointsOf ramp vv true).map (·.left)).reverse) i
      let left ← getOrPanic ((rampPointsOf ramp vv true).map (·.right) ++
        ((rampPointsOf ramp vv true).map (·.left)).reverse) (vv.length * 2 - i - 1)
      let height ← getOrPanic ((rampPointsOf ramp vv true).map (·.height)) i
      let ratio ← getOrPanic ((rampPointsOf ramp vv true).map (·.ratio)) i
      pure (floorPair ramp dims right left height ratio)) (by
      intro i q hq
      obtain ⟨a, b, c, d⟩ := outline_get ramp vv true hq
      simp only [getOrPanic_some a, getOrPanic_some b, getOrPanic_some c, getOrPanic_some d, bind,
        Except.bind, pure, Except.pure, hR, hL]
      simp only [floorPair, floorAt, bareVertex, rampPointOf, ne_eq, ite_not])
  obtain ⟨right, hr, sr, tr⟩ := stripMesh_eq (vv := vv)
    (pair := fun i q => wallAt ramp vv (rightAt ramp vv i q) ramp.right_wall_height_visible i q)
    (f := fun i => do
      let p ← getOrPanic ((rampPointsOf ramp vv true).map (·.right) ++
        ((rampPointsOf ramp vv true).map (·.left)).reverse) i
      let height ← getOrPanic ((rampPointsOf ramp vv true).map (·.height)) i
      let ratio ← getOrPanic ((rampPointsOf ramp vv true).map (·.ratio)) i
      pure (wallPair ramp p height ratio ramp.right_wall_height_visible)) (by
      intro i q hq
      obtain ⟨a, b, c, d⟩ := outline_get ramp vv true hq
      simp only [getOrPanic_some a, getOrPanic_some c, getOrPanic_some d, bind,
        Except.bind, pure, Except.pure, hR]
      simp only [wallPair, wallAt, bareVertex, rampPointOf])
  obtain ⟨left, hl, sl, tl⟩ := stripMesh_eq (vv := vv)
    (pair := fun i q => wallAt ramp vv (leftAt ramp vv i q) ramp.left_wall_height_visible i q)
    (f := fun i => do
      let p ← getOrPanic ((rampPointsOf ramp vv true).map (·.right) ++
        ((rampPointsOf ramp vv true).map (·.left)).reverse) (vv.length * 2 - i - 1)
      let height ← getOrPanic ((rampPointsOf ramp vv true).map (·.height)) i
      let ratio ← getOrPanic ((rampPointsOf ramp vv true).map (·.ratio)) i
      pure (wallPair ramp p height ratio ramp.left_wall_height_visible)) (by
      intro i q hq
      obtain ⟨a, b, c, d⟩ := outline_get ramp vv true hq
      simp only [getOrPanic_some b, getOrPanic_some c, getOrPanic_some d, bind,
        Except.bind, pure, Except.pure, hL]
      simp only [wallPair, wallAt, bareVertex, rampPointOf])
  refine ⟨floor, right, left,
    (if 0 <ᶠ ramp.left_wall_height_visible then
      (if 0 <ᶠ ramp.right_wall_height_visible then floor.join right else floor).join left
    else if 0 <ᶠ ramp.right_wall_height_visible then floor.join right else floor), ?_, sf, sr, sl, ?_, ?_⟩
  · unfold buildRampMesh
    rw [hw, hp]
    simp only [bind, Except.bind, Bool.false_eq_true, if_false]
    rw [if_neg (by omega), hnh]
    simp only [Bool.false_eq_true, if_false]
    unfold buildFlatRampMesh
    rw [getRampVertex_eq ramp true h2]
    simp only [bind, Except.bind] at hf hr hl ⊢
    rw [if_neg (by omega), hf, hr, hl]
    dsimp only
    have hne : floor.vertices ≠ [] ∧ floor.tris ≠ [] := by
      constructor
      · intro h; have := sf.vertex_count; rw [h] at this; simp at this; omega
      · intro h; have := sf.face_count; rw [h] at this; simp at this; omega
    rw [if_neg]
    · rfl
    · have : ∀ m : GenMesh, (m.vertices ≠ [] ∧ m.tris ≠ []) → ¬ ((m.vertices.isEmpty || m.tris.isEmpty) = true) := by
        intro m hm
        simp [hm.1, hm.2]
      apply this
      have hj : ∀ a b : GenMesh, a.vertices ≠ [] ∧ a.tris ≠ [] →
          (a.join b).vertices ≠ [] ∧ (a.join b).tris ≠ [] := by
        intro a b h
        simp [GenMesh.join, h.1, h.2]
      split
      · apply hj
        split
        · exact hj _ _ hne
        · exact hne
      · split
        · exact hj _ _ hne
        · exact hne
  · cases h1 : Arith.lt 0 ramp.left_wall_height_visible <;>
      cases h3 : Arith.lt 0 ramp.right_wall_height_visible <;>
      simp only [Bool.false_eq_true, if_false, if_true, List.append_nil]
    · exact Stacked.one floor
    · exact stacked_join (Stacked.one floor) right
    · exact stacked_join (Stacked.one floor) left
    · exact stacked_join (stacked_join (Stacked.one floor) right) left
  · intro p hp
    simp only [List.mem_cons, List.not_mem_nil, or_false] at hp
    rcases hp with rfl | rfl | rfl
    · exact tf
    · exact tr
    · exact tl

/-- the triangles of a strip are the ones of `stripTris` -/
theorem Strip.tris_eq {vv : List RenderVertex3D} {pair m} (h : Strip vv pair m) :
    m.tris = stripTris vv.length := by
  apply List.ext_getElem?
  intro k
  by_cases hk : k < 2 * (vv.length - 1)
  · obtain ⟨a, b⟩ := h.faces (k / 2) (by omega)
    have c := flatMap_range_get (c := 2) (f := fun i =>
      [(i * 2, i * 2 + 1, i * 2 + 3), (i * 2, i * 2 + 3, i * 2 + 2)]) (fun _ _ => rfl)
      (show k / 2 < vv.length - 1 by omega) (show k % 2 < 2 by omega)
    have hk' : 2 * (k / 2) + k % 2 = k := by omega
    rw [hk'] at c
    rw [stripTris, c]
    rcases Nat.mod_two_eq_zero_or_one k with h0 | h1
    · have e : 2 * (k / 2) = k := by omega
      rw [e] at a
      rw [a, h0, Nat.mul_comm, e]; rfl
    · have e : 2 * (k / 2) + 1 = k := by omega
      rw [e] at b
      rw [b, h1, Nat.mul_comm (k / 2)]; rfl
  · rw [List.getElem?_eq_none (by rw [h.face_count]; omega),
      List.getElem?_eq_none (by rw [strip_length]; omega)]

/-- **C66**: a strip along at least one step is a band: its rim runs along the one side and back along
the other. -/
theorem C66_strip {vv : List RenderVertex3D} {pair m} (h : Strip vv pair m) (h1 : 1 ≤ vv.length) :
    SurfaceWithRim m.tris (stripRim vv.length) ∧ InRange m.vertices.length m.tris ∧
      ∀ t ∈ m.tris, t.Proper := by
  rw [h.tris_eq, h.vertex_count]
  exact ⟨strip_surface h1, strip_inRange _⟩

theorem stacked_inRange {parts m} (h : Stacked parts m)
    (hp : ∀ p ∈ parts, InRange p.vertices.length p.tris ∧ ∀ t ∈ p.tris, t.Proper) :
    InRange m.vertices.length m.tris ∧ ∀ t ∈ m.tris, t.Proper := by
  induction h with
  | one m => exact hp m (by simp)
  | @more parts m p hs ih =>
    obtain ⟨i1, i2⟩ := ih fun q hq => hp q (by simp [hq])
    obtain ⟨p1, p2⟩ := hp p (by simp)
    constructor
    · intro t ht
      dsimp only at ht ⊢
      rw [List.length_append]
      rcases List.mem_append.1 ht with ht | ht
      · have := i1 t ht; omega
      · obtain ⟨u, hu, rfl⟩ := List.mem_map.1 ht
        have := p1 u hu
        simp only [Tri.map]
        omega
    · intro t ht
      dsimp only at ht
      rcases List.mem_append.1 ht with ht | ht
      · exact i2 t ht
      · obtain ⟨u, hu, rfl⟩ := List.mem_map.1 ht
        obtain ⟨a, b, c⟩ := p2 u hu
        simp only [Tri.map, Tri.Proper]
        omega

theorem stacked_count {parts m} (h : Stacked parts m) :
    m.vertices.length = (parts.map fun p => p.vertices.length).sum ∧
    m.tris.length = (parts.map fun p => p.tris.length).sum := by
  induction h with
  | one m => simp
  | more p hs ih => simp [ih.1, ih.2]

/-- the curve of a ramp that has a mesh -/
theorem ramp_points {fuel ramp dims detail opacity m}
    (h : buildRampMesh fuel ramp dims detail opacity = .ok (some m)) :
    ∃ vv, getRgVertex3D fuel ramp.drag_points (detailLevelToAccuracy fTen) = .ok vv ∧
      ((ramp.width_bottom ==ᶠ 0) && (ramp.width_top ==ᶠ 0)) = false ∧ 2 ≤ vv.length := by
  unfold buildRampMesh at h
  cases hw : (Arith.eq ramp.width_bottom 0) && (Arith.eq ramp.width_top 0) with
  | true => rw [hw] at h; cases h
  | false =>
    rw [hw] at h
    cases hp : getRgVertex3D fuel ramp.drag_points (detailLevelToAccuracy fTen) with
    | error e => rw [hp] at h; cases h
    | ok vv =>
      rw [hp] at h
      simp only [bind, Except.bind, Bool.false_eq_true, if_false] at h
      by_cases h2 : vv.length < 2
      · rw [if_pos h2] at h; cases h
      · exact ⟨vv, rfl, rfl, by omega⟩

/-- **C66**: all faces of a flat ramp have three different corners, among its vertices, and the counts
are those of one to three strips. -/
theorem C66_indices {fuel ramp dims detail opacity m} (hflat : ramp.ramp_type = .Flat)
    (h : buildRampMesh fuel ramp dims detail opacity = .ok (some m)) :
    InRange m.vertices.length m.tris ∧ (∀ t ∈ m.tris, t.Proper) ∧
    ∃ vv strips, getRgVertex3D fuel ramp.drag_points (detailLevelToAccuracy fTen) = .ok vv ∧
      strips = 1 + (if 0 <ᶠ ramp.right_wall_height_visible then 1 else 0) +
        (if 0 <ᶠ ramp.left_wall_height_visible then 1 else 0) ∧
      m.vertices.length = strips * (2 * vv.length) ∧ m.tris.length = strips * (2 * (vv.length - 1)) := by
  obtain ⟨vv, hp, hw, h2⟩ := ramp_points h
  obtain ⟨floor, right, left, m', hm, sf, sr, sl, st, -⟩ :=
    C66_flat (dims := dims) (detail := detail) (opacity := opacity) hflat hp hw h2
  rw [hm] at h
  cases h
  have hin := stacked_inRange st (by
    intro p hp
    have hp : p = floor ∨ p = right ∨ p = left := by
      simp only [List.mem_append, List.mem_cons, List.not_mem_nil, or_false] at hp
      rcases hp with (hp | hp) | hp
      · exact Or.inl hp
      · split at hp <;> simp_all
      · split at hp <;> simp_all
    rcases hp with rfl | rfl | rfl
    · exact (C66_strip sf (by omega)).2
    · exact (C66_strip sr (by omega)).2
    · exact (C66_strip sl (by omega)).2)
  obtain ⟨c1, c2⟩ := stacked_count st
  refine ⟨hin.1, hin.2, vv, _, hp, rfl, ?_, ?_⟩
  · rw [c1]
    cases h1 : Arith.lt 0 ramp.left_wall_height_visible <;>
      cases h3 : Arith.lt 0 ramp.right_wall_height_visible <;>
      simp [sf.vertex_count, sr.vertex_count, sl.vertex_count] <;> omega
  · rw [c2]
    cases h1 : Arith.lt 0 ramp.left_wall_height_visible <;>
      cases h3 : Arith.lt 0 ramp.right_wall_height_visible <;>
      simp [sf.face_count, sr.face_count, sl.face_count] <;> omega

/-! ### Wires -/

/-- The faces of `W` wires with `n` rings of `S` vertices each: two triangles between each pair of
neighbouring vertices of a ring and the next ring. -/
structure WireFaces (W n S : Nat) (ts : List Tri) : Prop where
  count : ts.length = 2 * ((n - 1) * S) * W
  faces : ∀ w < W, ∀ i < n - 1, ∀ j < S,
    let o := w * (n * S)
    let k := 2 * ((n - 1) * S) * w + (2 * S * i + 2 * j)
    ts[k]? = some (o + (i * S + j), o + (i * S + (j + 1) % S), o + ((i + 1) * S + j)) ∧
    ts[k + 1]? = some (o + ((i + 1) * S + (j + 1) % S), o + ((i + 1) * S + j), o + (i * S + (j + 1) % S))

/-- the faces of all wires -/
def allWireTris (W n S : Nat) : List Tri :=
  (List.range W).flatMap fun w =>
    (wireTris n S).map fun t => (t.1 + w * (n * S), t.2.1 + w * (n * S), t.2.2 + w * (n * S))

theorem wireFaces_all (W n S : Nat) : WireFaces W n S (allWireTris W n S) where
  count := by
    unfold allWireTris
    rw [flatMap_range_length (c := 2 * ((n - 1) * S))]
    intro w _
    rw [List.length_map, wire_length]
  faces := by
    intro w hw i hi j hj
    have hblock : ∀ w < W, ((wireTris n S).map fun t =>
        (t.1 + w * (n * S), t.2.1 + w * (n * S), t.2.2 + w * (n * S))).length = 2 * ((n - 1) * S) := by
      intro w _
      rw [List.length_map, wire_length]
    have hb : 2 * S * i + 2 * j + 1 < 2 * ((n - 1) * S) := by
      have : (i + 1) * S ≤ (n - 1) * S := Nat.mul_le_mul_right _ (by omega)
      rw [Nat.add_mul, Nat.one_mul] at this
      rw [Nat.mul_assoc, Nat.mul_comm S i]
      omega
    have cell : ∀ r < 2, (wireTris n S)[2 * S * i + (2 * j + r)]? =
        [(i * S + j, i * S + (j + 1) % S, (i + 1) * S + j),
          ((i + 1) * S + (j + 1) % S, (i + 1) * S + j, i * S + (j + 1) % S)][r]? := by
      intro r hr
      rw [wireTris_eq]
      rw [flatMap_range_get (c := 2 * S) (fun i _ => flatMap_range_length (c := 2) fun j _ => rfl) hi
        (show 2 * j + r < 2 * S by omega)]
      rw [flatMap_range_get (c := 2) (fun j _ => rfl) hj hr]
    have g0 := flatMap_range_get hblock hw (show 2 * S * i + 2 * j < 2 * ((n - 1) * S) by omega)
    have g1 := flatMap_range_get hblock hw (show 2 * S * i + 2 * j + 1 < 2 * ((n - 1) * S) by omega)
    rw [List.getElem?_map] at g0 g1
    have c0 := cell 0 (by omega)
    have c1 := cell 1 (by omega)
    rw [Nat.add_zero] at c0
    rw [← Nat.add_assoc] at c1
    rw [c0] at g0
    rw [c1] at g1
    dsimp only
    refine ⟨?_, ?_⟩
    · unfold allWireTris
      rw [g0]
      simp [Nat.add_comm (w * (n * S))]
    · unfold allWireTris
      rw [Nat.add_assoc, g1]
      simp [Nat.add_comm (w * (n * S))]

theorem wireMiddle_spec (ramp : Ramp) (r l : Vec2) : wireMiddle ramp r l = singleWireAt ramp r l := rfl

theorem wires_core {fuel : Nat} {ramp : Ramp} {dims : TableDims} {detail : UInt32} {opacity : Bool}
    {vv : List RenderVertex3D} (hwire : ramp.ramp_type ≠ .Flat)
    (hp : getRgVertex3D fuel ramp.drag_points (detailLevelToAccuracy fTen) = .ok vv)
    (hw : ((ramp.width_bottom ==ᶠ 0) && (ramp.width_top ==ᶠ 0)) = false) (h2 : 2 ≤ vv.length) :
    ∃ (wires : List (List Vertex)),
      buildRampMesh fuel ramp dims detail opacity =
        (if wires.flatten.isEmpty || (allWireTris wires.length vv.length
            (ringSegments detail (!opacity))).isEmpty then .ok none
          else .ok (some ⟨wires.flatten, allWireTris wires.length vv.length
            (ringSegments detail (!opacity))⟩)) ∧
      wires.length = (wiresOf ramp vv).length ∧
      (∀ (k : Nat) line lift vs, (wiresOf ramp vv)[k]? = some (line, lift) → wires[k]? = some vs →
        Wire line (vv.mapIdx (heightAt ramp vv)) ramp.wire_diameter lift (ringSegments detail (!opacity)) vs) := by
  have hh : isHabitrail ramp = true := by
    cases ht : ramp.ramp_type <;> simp_all [isHabitrail]
  have hwid := rampWidth_eq ramp false (fun _ => rfl)
  have hRp : ∀ (i : Nat) q, (rampPointOf ramp vv false i q).right = rightAt ramp vv i q := by
    intro i q; simp only [rampPointOf, rightAt, hwid]
  have hLp : ∀ (i : Nat) q, (rampPointOf ramp vv false i q).left = leftAt ramp vv i q := by
    intro i q; simp only [rampPointOf, leftAt, hwid]
  generalize hSe : ringSegments detail (!opacity) = S at ⊢
  -- the lists
  have hheights : (rampPointsOf ramp vv false).map (·.height) = vv.mapIdx (heightAt ramp vv) := by
    apply List.ext_getElem?
    intro k
    rw [List.getElem?_map, rampPointsOf, List.getElem?_mapIdx, List.getElem?_mapIdx, Option.map_map]
    rfl
  have hrights : (rampPointsOf ramp vv false).map (·.right) = vv.mapIdx (rightAt ramp vv) := by
    apply List.ext_getElem?
    intro k
    rw [List.getElem?_map, rampPointsOf, List.getElem?_mapIdx, List.getElem?_mapIdx, Option.map_map]
    congr 1
    funext q
    exact hRp k q
  have range_mapM : ∀ (f : Nat → Res Vec2) (g : Nat → RenderVertex3D → Vec2),
      (∀ (i : Nat) q, vv[i]? = some q → f i = .ok (g i q)) →
      (List.range vv.length).mapM f = .ok (vv.mapIdx g) := by
    intro f g hfg
    rw [mapM_all_ok (g := fun i => match vv[i]? with | some q => g i q | none => ⟨0, 0⟩)]
    · congr 1
      apply List.ext_getElem?
      intro k
      rw [List.getElem?_map, List.getElem?_mapIdx]
      by_cases hk : k < vv.length
      · rw [List.getElem?_range hk, List.getElem?_eq_getElem hk, Option.map_some, Option.map_some,
          List.getElem?_eq_getElem hk]
      · rw [List.getElem?_eq_none (by simp; omega), List.getElem?_eq_none (by omega)]; rfl
    · intro i hi
      have hi := List.mem_range.1 hi
      rw [List.getElem?_eq_getElem hi]
      exact hfg i _ (List.getElem?_eq_getElem hi)
  have hmid := range_mapM (fun i => do
      let right ← getOrPanic ((rampPointsOf ramp vv false).map (·.right) ++
        ((rampPointsOf ramp vv false).map (·.left)).reverse) i
      let left ← getOrPanic ((rampPointsOf ramp vv false).map (·.right) ++
        ((rampPointsOf ramp vv false).map (·.left)).reverse) (vv.length * 2 - i - 1)
      pure (wireMiddle ramp right left))
    (fun i q => singleWireAt ramp (rightAt ramp vv i q) (leftAt ramp vv i q)) (by
      intro i q hq
      obtain ⟨a, b, -, -⟩ := outline_get ramp vv false hq
      simp only [getOrPanic_some a, getOrPanic_some b, bind, Except.bind, pure, Except.pure, hRp, hLp]
      rfl)
  have hleft := range_mapM (fun i => getOrPanic ((rampPointsOf ramp vv false).map (·.right) ++
        ((rampPointsOf ramp vv false).map (·.left)).reverse) (vv.length * 2 - i - 1))
    (leftAt ramp vv) (by
      intro i q hq
      obtain ⟨-, b, -, -⟩ := outline_get ramp vv false hq
      rw [getOrPanic_some b, hLp])
  have hright : ((rampPointsOf ramp vv false).map (·.right) ++
      ((rampPointsOf ramp vv false).map (·.left)).reverse).take vv.length = vv.mapIdx (rightAt ramp vv) := by
    rw [List.take_append_of_le_length (by simp [rampPointsOf]),
      List.take_of_length_le (by simp [rampPointsOf]), hrights]
  have hwireAt : ∀ line : List Vec2, line.length = vv.length →
      ∃ vs, createWire ramp.wire_diameter vv.length S line (vv.mapIdx (heightAt ramp vv)) = .ok vs ∧
        Wire line (vv.mapIdx (heightAt ramp vv)) ramp.wire_diameter none S vs := by
    intro line hl
    have := createWire_eq ramp.wire_diameter S (mp := line) (heights := vv.mapIdx (heightAt ramp vv))
      (by omega) (by rw [List.length_mapIdx, hl])
    rw [hl] at this
    exact ⟨_, this, by
      have := wire_plain ramp.wire_diameter S (mp := line) (heights := vv.mapIdx (heightAt ramp vv))
        (by rw [List.length_mapIdx, hl])
      rwa [hl] at this⟩
  obtain ⟨vm, cm, wm⟩ := hwireAt (vv.mapIdx fun i q => singleWireAt ramp (rightAt ramp vv i q)
    (leftAt ramp vv i q)) (by rw [List.length_mapIdx])
  obtain ⟨vr, cr, wr⟩ := hwireAt (vv.mapIdx (rightAt ramp vv)) (by rw [List.length_mapIdx])
  obtain ⟨vl, cl, wl⟩ := hwireAt (vv.mapIdx (leftAt ramp vv)) (by rw [List.length_mapIdx])
  have build : buildRampMesh fuel ramp dims detail opacity = buildWireRampMesh ramp vv detail opacity := by
    unfold buildRampMesh
    rw [hw, hp]
    simp only [bind, Except.bind, Bool.false_eq_true, if_false]
    rw [if_neg (by omega), hh]
    rfl
  -- the code, for any list of wires
  rw [build]
  unfold buildWireRampMesh
  rw [getRampVertex_eq ramp false h2]
  simp only [bind, Except.bind, pure, Except.pure] at hmid hleft ⊢
  rw [if_neg (by omega), hmid, hleft, hSe, hright, hheights]
  dsimp only
  cases ht : ramp.ramp_type
  case Flat => exact absurd ht hwire
  case FourWire =>
    refine ⟨[raiseWire fThree vr, raiseWire fThree vl, raiseWire (ramp.wire_distance_y *ᶠ fHalf) vr,
      raiseWire (ramp.wire_distance_y *ᶠ fHalf) vl], ?_, ?_, ?_⟩
    · dsimp only
      rw [cr, cl]
      rfl
    · rw [wiresOf, ht]; rfl
    · intro k line lift vs hk hv
      rw [wiresOf, ht] at hk
      match k with
      | 0 => cases hk; cases hv; exact wire_raised wr _
      | 1 => cases hk; cases hv; exact wire_raised wl _
      | 2 => cases hk; cases hv; exact wire_raised wr _
      | 3 => cases hk; cases hv; exact wire_raised wl _
      | k + 4 => cases hk
  case OneWire =>
    refine ⟨[vm], ?_, ?_, ?_⟩
    · dsimp only
      rw [cm]
      rfl
    · rw [wiresOf, ht]; rfl
    · intro k line lift vs hk hv
      rw [wiresOf, ht] at hk
      match k with
      | 0 => cases hk; cases hv; exact wm
      | k + 1 => cases hk
  case TwoWire =>
    refine ⟨[raiseWire fThree vr, raiseWire fThree vl], ?_, ?_, ?_⟩
    · dsimp only
      rw [cr, cl]
      rfl
    · rw [wiresOf, ht]; rfl
    · intro k line lift vs hk hv
      rw [wiresOf, ht] at hk
      match k with
      | 0 => cases hk; cases hv; exact wire_raised wr _
      | 1 => cases hk; cases hv; exact wire_raised wl _
      | k + 2 => cases hk
  case ThreeWireLeft =>
    refine ⟨[raiseWire fThree vr, raiseWire fThree vl, raiseWire (ramp.wire_distance_y *ᶠ fHalf) vl], ?_, ?_, ?_⟩
    · dsimp only
      rw [cr, cl]
      rfl
    · rw [wiresOf, ht]; rfl
    · intro k line lift vs hk hv
      rw [wiresOf, ht] at hk
      match k with
      | 0 => cases hk; cases hv; exact wire_raised wr _
      | 1 => cases hk; cases hv; exact wire_raised wl _
      | 2 => cases hk; cases hv; exact wire_raised wl _
      | k + 3 => cases hk
  case ThreeWireRight =>
    refine ⟨[raiseWire fThree vr, raiseWire fThree vl, raiseWire (ramp.wire_distance_y *ᶠ fHalf) vr], ?_, ?_, ?_⟩
    · dsimp only
      rw [cr, cl]
      rfl
    · rw [wiresOf, ht]; rfl
    · intro k line lift vs hk hv
      rw [wiresOf, ht] at hk
      match k with
      | 0 => cases hk; cases hv; exact wire_raised wr _
      | 1 => cases hk; cases hv; exact wire_raised wl _
      | 2 => cases hk; cases hv; exact wire_raised wr _
      | k + 3 => cases hk

/-- **C67**: the mesh of a ramp of wires: one to four wires, each a tube along its line. -/
theorem C67_wires {fuel : Nat} {ramp : Ramp} {dims : TableDims} {detail : UInt32} {opacity : Bool}
    {vv : List RenderVertex3D} (hwire : ramp.ramp_type ≠ .Flat)
    (hp : getRgVertex3D fuel ramp.drag_points (detailLevelToAccuracy fTen) = .ok vv)
    (hw : ((ramp.width_bottom ==ᶠ 0) && (ramp.width_top ==ᶠ 0)) = false) (h2 : 2 ≤ vv.length)
    (hS : 0 < ringSegments detail (!opacity)) :
    ∃ (wires : List (List Vertex)) (m : GenMesh),
      buildRampMesh fuel ramp dims detail opacity = .ok (some m) ∧
      wires.length = (wiresOf ramp vv).length ∧
      (∀ (k : Nat) line lift vs, (wiresOf ramp vv)[k]? = some (line, lift) → wires[k]? = some vs →
        Wire line (vv.mapIdx (heightAt ramp vv)) ramp.wire_diameter lift (ringSegments detail (!opacity)) vs) ∧
      m.vertices = wires.flatten ∧
      WireFaces (wiresOf ramp vv).length vv.length (ringSegments detail (!opacity)) m.tris := by
  obtain ⟨wires, hm, hl, hW⟩ := wires_core (dims := dims) (detail := detail) (opacity := opacity) hwire hp hw h2
  have hpos : 0 < (wiresOf ramp vv).length := by
    cases ht : ramp.ramp_type <;> simp [wiresOf, ht]
    exact hwire ht
  rw [if_neg] at hm
  · exact ⟨wires, _, hm, hl, hW, rfl, by rw [hl]; exact wireFaces_all _ _ _⟩
  · have h1 := wireFaces_all wires.length vv.length (ringSegments detail (!opacity))
    have hne : allWireTris wires.length vv.length (ringSegments detail (!opacity)) ≠ [] := by
      intro h
      have h0 := h1.count
      rw [h, hl] at h0
      have : 0 < 2 * ((vv.length - 1) * ringSegments detail (!opacity)) * (wiresOf ramp vv).length :=
        Nat.mul_pos (Nat.mul_pos (by omega) (Nat.mul_pos (by omega) hS)) hpos
      simp only [List.length_nil] at h0
      omega
    have hv : wires.flatten ≠ [] := by
      obtain ⟨⟨line, lift⟩, hk⟩ : ∃ x, (wiresOf ramp vv)[0]? = some x := ⟨_, List.getElem?_eq_getElem hpos⟩
      obtain ⟨vs, hvs⟩ : ∃ vs, wires[0]? = some vs := ⟨_, List.getElem?_eq_getElem (by omega)⟩
      have hc := (hW 0 line lift vs hk hvs).vertex_count
      have hline : line.length = vv.length := by
        revert hk
        cases ht : ramp.ramp_type <;> simp only [wiresOf, ht] <;> intro hk <;> cases hk <;>
          rw [List.length_mapIdx]
      intro h
      have hmem := List.mem_of_getElem? hvs
      have : vs = [] := (List.flatten_eq_nil_iff.1 h) vs hmem
      rw [this, hline] at hc
      have : 0 < vv.length * ringSegments detail (!opacity) := Nat.mul_pos (by omega) hS
      simp only [List.length_nil] at hc
      omega
    simp [hv, hne]

/-- the rims of the wires: the first ring, walked backwards, and the last one -/
def wireRims (W n S : Nat) : List (Nat × Nat) :=
  (List.range W).flatMap fun w =>
    loopEdges ((List.range S).map (w * (n * S) + ·)).reverse ++
      loopEdges ((List.range S).map (fun x => w * (n * S) + ((n - 1) * S + x)))

theorem wireFaces_eq {W n S : Nat} {ts : List Tri} (h : WireFaces W n S ts) : ts = allWireTris W n S := by
  have g := wireFaces_all W n S
  apply List.ext_getElem?
  intro k
  by_cases hk : k < 2 * ((n - 1) * S) * W
  · have hB : 0 < 2 * ((n - 1) * S) := by
      rcases Nat.eq_zero_or_pos (2 * ((n - 1) * S)) with h0 | h0
      · rw [h0] at hk; omega
      · exact h0
    have hS : 0 < S := by
      rcases Nat.eq_zero_or_pos S with h0 | h0
      · rw [h0] at hB; omega
      · exact h0
    obtain ⟨w, r, hw, hr, rfl⟩ : ∃ w r, w < W ∧ r < 2 * ((n - 1) * S) ∧ k = 2 * ((n - 1) * S) * w + r :=
      ⟨k / (2 * ((n - 1) * S)), k % (2 * ((n - 1) * S)), Nat.div_lt_of_lt_mul hk, Nat.mod_lt _ hB,
        (Nat.div_add_mod _ _).symm⟩
    obtain ⟨i, j, hi, hj, e⟩ : ∃ i j, i < n - 1 ∧ j < 2 * S ∧ r = 2 * S * i + j :=
      ⟨r / (2 * S), r % (2 * S), Nat.div_lt_of_lt_mul (by
        rw [Nat.mul_right_comm, Nat.mul_assoc]; omega), Nat.mod_lt _ (by omega), (Nat.div_add_mod _ _).symm⟩
    obtain ⟨a, b⟩ := h.faces w hw i hi (j / 2) (by omega)
    obtain ⟨a', b'⟩ := g.faces w hw i hi (j / 2) (by omega)
    rcases Nat.mod_two_eq_zero_or_one j with h0 | h0
    · have ej : 2 * (j / 2) = j := by omega
      rw [ej] at a a'
      rw [e, a, a']
    · have ej : 2 * ((n - 1) * S) * w + (2 * S * i + j) =
          2 * ((n - 1) * S) * w + (2 * S * i + 2 * (j / 2)) + 1 := by omega
      rw [e, ej, b, b']
  · rw [List.getElem?_eq_none (by rw [h.count]; omega), List.getElem?_eq_none (by rw [g.count]; omega)]

/-- **C67**: the faces of the wires use their vertices only; no edge is used twice in the same direction;
and apart from the two ends of each wire nothing is left open. -/
theorem C67_surface {W n S : Nat} {ts : List Tri} (h : WireFaces W n S ts) :
    InRange (W * (n * S)) ts ∧ Balanced (triEdges ts ++ wireRims W n S) ∧
      (2 ≤ n → 3 ≤ S → (triEdges ts).Nodup) := by
  rw [wireFaces_eq h]
  have hall : triEdges (allWireTris W n S) = (List.range W).flatMap fun w =>
      (triEdges (wireTris n S)).map fun e => (e.1 + w * (n * S), e.2 + w * (n * S)) := by
    unfold allWireTris
    rw [triEdges_flatMap]
    congr 1
    funext w
    exact triEdges_map (· + w * (n * S)) _
  refine ⟨?_, ?_, ?_⟩
  · intro t ht
    obtain ⟨w, hw, ht⟩ := List.mem_flatMap.1 ht
    obtain ⟨u, hu, rfl⟩ := List.mem_map.1 ht
    have hw := List.mem_range.1 hw
    obtain ⟨a, b, c⟩ := wire_inRange n S u hu
    have : (w + 1) * (n * S) ≤ W * (n * S) := Nat.mul_le_mul_right _ hw
    rw [Nat.add_mul, Nat.one_mul] at this
    dsimp only
    omega
  · rw [balanced_iff]
    intro f hf
    rw [esum_append, hall, wireRims, esum_flatMap, esum_flatMap]
    have key : ∀ w, esum f ((triEdges (wireTris n S)).map fun e => (e.1 + w * (n * S), e.2 + w * (n * S))) =
        - esum f (loopEdges ((List.range S).map (w * (n * S) + ·)).reverse ++
          loopEdges ((List.range S).map (fun x => w * (n * S) + ((n - 1) * S + x)))) := by
      intro w
      have hb := (balanced_iff _).1 (wire_balanced n S) (fun a b => f (a + w * (n * S)) (b + w * (n * S)))
        (fun a b => hf _ _)
      have e1 : ((List.range S).map (w * (n * S) + ·)).reverse =
          (List.range S).reverse.map (w * (n * S) + ·) := by rw [List.map_reverse]
      have e2 : (List.range S).map (fun x => w * (n * S) + ((n - 1) * S + x)) =
          ((List.range S).map ((n - 1) * S + ·)).map (w * (n * S) + ·) := by
        rw [List.map_map]; rfl
      rw [e1, e2, loopEdges_map, loopEdges_map, esum_append]
      rw [esum_append, esum_append] at hb
      have m1 : ∀ es : List (Nat × Nat), esum f (es.map fun e => (e.1 + w * (n * S), e.2 + w * (n * S))) =
          esum (fun a b => f (a + w * (n * S)) (b + w * (n * S))) es := by
        intro es; simp [esum, Function.comp_def]
      have m2 : ∀ es : List (Nat × Nat), esum f (es.map (Prod.map (fun x => w * (n * S) + x) fun x => w * (n * S) + x)) =
          esum (fun a b => f (a + w * (n * S)) (b + w * (n * S))) es := by
        intro es; simp [esum, Function.comp_def, Nat.add_comm (w * (n * S))]
      rw [m1, m2, m2]
      omega
    have : ∀ l : List Nat, (l.map fun w => esum f ((triEdges (wireTris n S)).map fun e =>
        (e.1 + w * (n * S), e.2 + w * (n * S)))).sum + (l.map fun w => esum f
          (loopEdges ((List.range S).map (w * (n * S) + ·)).reverse ++
          loopEdges ((List.range S).map (fun x => w * (n * S) + ((n - 1) * S + x))))).sum = 0 := by
      intro l
      induction l with
      | nil => rfl
      | cons a l ih =>
        simp only [List.map_cons, List.sum_cons]
        rw [key a]
        omega
    exact this _
  · intro hn hS
    rw [hall]
    unfold List.Nodup
    rw [List.pairwise_flatMap]
    constructor
    · intro w _
      rw [List.pairwise_map]
      refine (wire_nodup hn hS).imp ?_
      intro a b hab he
      simp only [Prod.mk.injEq] at he
      exact hab (Prod.ext (by omega) (by omega))
    · refine List.pairwise_lt_range.imp_of_mem ?_
      intro i k _ _ hlt e1 h1 e2 h2 he
      obtain ⟨u1, hu1, rfl⟩ := List.mem_map.1 h1
      obtain ⟨u2, hu2, rfl⟩ := List.mem_map.1 h2
      simp only [Prod.mk.injEq] at he
      have b1 : u1.1 < n * S := by
        obtain ⟨t, ht, hu⟩ := List.mem_flatMap.1 hu1
        obtain ⟨a, b, c⟩ := wire_inRange n S t ht
        simp only [Tri.edges, List.mem_cons, List.not_mem_nil, or_false] at hu
        rcases hu with rfl | rfl | rfl <;> assumption
      have : (i + 1) * (n * S) ≤ k * (n * S) := Nat.mul_le_mul_right _ hlt
      rw [Nat.add_mul, Nat.one_mul] at this
      omega

/-- **C66**: there is no mesh when both widths are zero or the curve has fewer than two points; otherwise
the only failure is a curve that is never finished (C61). -/
theorem C66_absent {fuel ramp dims detail opacity}
    (h : ((ramp.width_bottom ==ᶠ 0) && (ramp.width_top ==ᶠ 0)) = true ∨
      ∃ vv, getRgVertex3D fuel ramp.drag_points (detailLevelToAccuracy fTen) = .ok vv ∧ vv.length < 2) :
    buildRampMesh fuel ramp dims detail opacity = .ok none := by
  unfold buildRampMesh
  by_cases hw : ((ramp.width_bottom ==ᶠ 0) && (ramp.width_top ==ᶠ 0)) = true
  · rw [if_pos hw]; rfl
  · rw [if_neg hw]
    obtain ⟨vv, hp, h2⟩ := h.resolve_left hw
    rw [hp]
    simp only [bind, Except.bind]
    rw [if_pos h2]; rfl

/-- **C66**, **C67**: building the mesh of a ramp never panics. -/
theorem C66_failure {fuel ramp dims detail opacity e}
    (h : buildRampMesh fuel ramp dims detail opacity = .error e) : e = .fuel := by
  cases hw : ((ramp.width_bottom ==ᶠ 0) && (ramp.width_top ==ᶠ 0)) with
  | true => rw [C66_absent (Or.inl hw)] at h; cases h
  | false =>
    cases hp : getRgVertex3D fuel ramp.drag_points (detailLevelToAccuracy fTen) with
    | error e' =>
      unfold buildRampMesh at h
      rw [hw, hp] at h
      cases h
      exact C61_ramp_no_panic hp
    | ok vv =>
      by_cases h2 : vv.length < 2
      · rw [C66_absent (Or.inr ⟨vv, hp, h2⟩)] at h; cases h
      have h2 : 2 ≤ vv.length := by omega
      by_cases ht : ramp.ramp_type = .Flat
      · obtain ⟨_, _, _, m, hm, -⟩ := C66_flat (dims := dims) (detail := detail) (opacity := opacity) ht hp hw h2
        rw [hm] at h; cases h
      · obtain ⟨wires, hm, -⟩ := wires_core (dims := dims) (detail := detail) (opacity := opacity) ht hp hw h2
        rw [hm] at h
        split at h <;> cases h

end

/-! ### Concrete cases -/

section
attribute [local instance] ieeeExact

/-- the size of the meshes of a ramp over two steps, flat and of wires: 3 strips, and 1 to 4 wires with
rings of 12 -/
def cornerRampOf (t : RampType) : Ramp :=
  { Ramp.default with
    ramp_type := t, drag_points := [dragAt 0 0 false, dragAt fTen 0 false, dragAt fTen fTen false] }

def rampCounts (r : Ramp) : Option (Nat × Nat) :=
  (buildRampMesh 6 r ⟨0, 0, f360, f360⟩ 10 false).toOption.bind fun r => r.map fun m =>
    (m.vertices.length, m.tris.length)

theorem cornerRamp_points (t : RampType) :
    ((getRgVertex3D 6 (cornerRampOf t).drag_points (detailLevelToAccuracy fTen)).toOption.map List.length) =
      some 3 ∧
    (Arith.eq (cornerRampOf t).width_bottom 0 && Arith.eq (cornerRampOf t).width_top 0) = false := by
  constructor
  · show (getRgVertex3D 6 [dragAt 0 0 false, dragAt fTen 0 false, dragAt fTen fTen false] _).toOption.map _ = _
    decide +kernel
  · show (Arith.eq Ramp.default.width_bottom 0 && Arith.eq Ramp.default.width_top 0) = false
    decide +kernel

/-- the hypotheses of `C66_flat` and `C67_wires` hold for them -/
example (t : RampType) : ∃ vv,
    getRgVertex3D 6 (cornerRampOf t).drag_points (detailLevelToAccuracy fTen) = .ok vv ∧
    (((cornerRampOf t).width_bottom ==ᶠ 0) && ((cornerRampOf t).width_top ==ᶠ 0)) = false ∧ 2 ≤ vv.length ∧
    0 < ringSegments 10 (!false) := by
  obtain ⟨h1, h2⟩ := cornerRamp_points t
  cases hp : getRgVertex3D 6 (cornerRampOf t).drag_points (detailLevelToAccuracy fTen) with
  | error e => rw [hp] at h1; cases h1
  | ok vv =>
    rw [hp] at h1
    have hl : vv.length = 3 := by simpa [Except.toOption] using h1
    exact ⟨vv, rfl, h2, by omega, by decide⟩

example : rampCounts (cornerRampOf .Flat) = some (3 * 6, 3 * 4) := by decide +kernel
example : rampCounts (cornerRampOf .TwoWire) = some (2 * (3 * 12), 2 * (2 * (2 * 12))) := by decide +kernel

end
end Vpin
