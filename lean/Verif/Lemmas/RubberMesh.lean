import Verif.Model.RubberMesh
import Verif.Lemmas.Torus
import Verif.Spec.Tube
/-
Vertex normals and the rings of a rubber.
-/
namespace Vpin
open Arith

theorem rubberCell_eq {R S i j : Nat} (hi : i < R) (hj : j < S) :
    rubberCell R S i j = [(i * S + j, i * S + (j + 1) % S, (i + 1) % R * S + j),
      ((i + 1) % R * S + (j + 1) % S, (i + 1) % R * S + j, i * S + (j + 1) % S)] := by
  unfold rubberCell
  have e1 : (i ≠ R - 1) ↔ i + 1 ≠ R := by omega
  have e2 : (j ≠ S - 1) ↔ j + 1 ≠ S := by omega
  simp only [e1, e2]
  rcases next_cases hi with ⟨a, b⟩ | ⟨a, b⟩ <;> rcases next_cases hj with ⟨c, d⟩ | ⟨c, d⟩
  · simp [b, d, show i + 1 ≠ R by omega, show j + 1 ≠ S by omega, Nat.add_assoc]
  · simp [b, d, show i + 1 ≠ R by omega, c]
  · simp [b, d, a, show j + 1 ≠ S by omega, Nat.add_assoc]
  · simp [b, d, a, c]

theorem rubberTris_eq (R S : Nat) : ((List.range R).flatMap fun i =>
    (List.range S).flatMap (rubberCell R S i)) = torusTris R S := by
  unfold torusTris
  rw [List.flatMap_def, List.flatMap_def]
  congr 1
  apply List.map_congr_left
  intro i hi
  rw [List.flatMap_def, List.flatMap_def]
  congr 1
  apply List.map_congr_left
  intro j hj
  exact rubberCell_eq (List.mem_range.1 hi) (List.mem_range.1 hj)

section
variable [Arith]

/-- the vertex with another normal -/
def Vertex.withNormal (v : Vertex) (n : Vec3) : Vertex := { v with nx := n.x, ny := n.y, nz := n.z }

/-- the sum of a list of vectors, on top of `s` -/
def vsum (s : Vec3) (ns : List Vec3) : Vec3 :=
  ns.foldl (fun a b => Vec3.mk (a.x +ᶠ b.x) (a.y +ᶠ b.y) (a.z +ᶠ b.z)) s

theorem modify_withNormal (vs : List Vertex) (s : Nat → Vec3) (c : Nat) (n : Vec3) :
    (vs.mapIdx fun k v => v.withNormal (s k)).modify c (Vertex.addNormal n) =
      vs.mapIdx fun k v => v.withNormal (vsum (s k) (([c].filter (· == k)).map fun _ => n)) := by
  apply List.ext_getElem?
  intro k
  rw [List.getElem?_modify, List.getElem?_mapIdx, List.getElem?_mapIdx]
  cases vs[k]? with
  | none => rfl
  | some v =>
    by_cases h : c = k
    · simp [h, vsum, Vertex.addNormal, Vertex.withNormal]
    · simp [h, vsum]

theorem accumulate_withNormal (vs : List Vertex) (s : Nat → Vec3) (t : Tri)
    (ht : t.1 < vs.length ∧ t.2.1 < vs.length ∧ t.2.2 < vs.length) :
    accumulateNormal (vs.mapIdx fun k v => v.withNormal (s k)) t =
      vs.mapIdx fun k v => v.withNormal (vsum (s k)
        (([t.1, t.2.1, t.2.2].filter (· == k)).map fun _ => faceNormal vs t)) := by
  obtain ⟨a, b, c⟩ := t
  obtain ⟨h1, h2, h3⟩ := ht
  dsimp only at h1 h2 h3
  unfold accumulateNormal faceNormal
  simp only [List.getElem?_mapIdx, List.getElem?_eq_getElem h1, List.getElem?_eq_getElem h2,
    List.getElem?_eq_getElem h3, Option.map_some]
  rw [modify_withNormal, modify_withNormal, modify_withNormal]
  congr 1
  funext k v
  congr 1
  unfold vsum
  rw [← List.foldl_append, ← List.foldl_append, ← List.map_append, ← List.map_append,
    ← List.filter_append, ← List.filter_append]
  rfl

theorem accumulate_all (vs : List Vertex) (ts : List Tri) (h : InRange vs.length ts) (s : Nat → Vec3) :
    ts.foldl accumulateNormal (vs.mapIdx fun k v => v.withNormal (s k)) =
      vs.mapIdx fun k v => v.withNormal (vsum (s k) (normalsAround vs ts k)) := by
  induction ts generalizing s with
  | nil => rfl
  | cons t ts ih =>
    rw [List.foldl_cons, accumulate_withNormal vs s t (h t (by simp)),
      ih (fun t ht => h t (by simp [ht]))]
    congr 1
    funext k v
    congr 1
    simp only [vsum, normalsAround, List.flatMap_cons, List.foldl_append]

theorem computeNormals_eq (vs : List Vertex) (ts : List Tri) (h : InRange vs.length ts) :
    computeNormals vs ts = vs.mapIdx fun k v => v.withNormal (meanDirection (normalsAround vs ts k)) := by
  unfold computeNormals
  have h0 : (vs.map fun v => { v with nx := 0, ny := 0, nz := 0 }) =
      vs.mapIdx fun k v => v.withNormal ((fun _ => ⟨0, 0, 0⟩ : Nat → Vec3) k) := by
    apply List.ext_getElem?
    intro k
    rw [List.getElem?_map, List.getElem?_mapIdx]
    rfl
  dsimp only
  rw [h0, accumulate_all vs ts h]
  apply List.ext_getElem?
  intro k
  rw [List.getElem?_map, List.getElem?_mapIdx, List.getElem?_mapIdx]
  cases vs[k]? with
  | none => rfl
  | some v =>
    simp only [Option.map_some, Option.some.injEq]
    unfold Vertex.normalizeNormal meanDirection Vertex.withNormal vsum
    dsimp only
    split <;> rfl

/-- the vertices of ring `i`, before the normals are computed -/
def ringOf (points : List RenderVertex2D) (height thickness : F32) (S i : Nat) (p : RenderVertex2D) :
    List Vertex :=
  (List.range S).map fun j =>
    let q := ringPlace points height thickness S i j p
    let u := ofNat i *ᶠ (f32One /ᶠ ofNat points.length)
    ⟨q.1, q.2.1, q.2.2, 0, 0, 0, u, (ofNat j +ᶠ u) *ᶠ (f32One /ᶠ ofNat S)⟩

/-- the middle points -/
def middlePoints (points : List RenderVertex2D) : List Vec2 :=
  points.map (fun p => Vec2.mk p.x p.y) ++ (points.take 1).map fun p => Vec2.mk p.x p.y

/-- the second normal before ring `i` -/
def binormBefore (points : List RenderVertex2D) (height : F32) : Nat → Vec3
  | 0 => ⟨0, 0, 0⟩
  | i + 1 => (frameAt points height i).2

theorem frameAt_zero {points : List RenderVertex2D} {height : F32} {p q} (hp : points[0]? = some p)
    (hq : points[1 % points.length]? = some q) :
    frameAt points height 0 =
      ((planarCross (tangentAt points 0) ⟨q.x +ᶠ p.x, q.y +ᶠ p.y, height *ᶠ fTwo⟩).normalize,
        (planarCross (tangentAt points 0) (planarCross (tangentAt points 0)
          ⟨q.x +ᶠ p.x, q.y +ᶠ p.y, height *ᶠ fTwo⟩)).normalize) := by
  unfold frameAt
  rw [hp, hq]

theorem rubberRing_eq (points : List RenderVertex2D) (height thickness : F32) (S i : Nat)
    (hi : i < points.length) :
    rubberRing (middlePoints points) points.length S height thickness (binormBefore points height i) i =
      .ok (ringOf points height thickness S i (points[i]'hi), (frameAt points height i).2) := by
  have hp : (middlePoints points)[i]? = some ⟨(points[i]'hi).x, (points[i]'hi).y⟩ := by
    rw [middlePoints, List.getElem?_append_left (by simpa using hi), List.getElem?_map,
      List.getElem?_eq_getElem hi]
    rfl
  have hlt : (i + 1) % points.length < points.length := Nat.mod_lt _ (by omega)
  obtain ⟨q, hq⟩ : ∃ q, points[(i + 1) % points.length]? = some q :=
    ⟨_, List.getElem?_eq_getElem hlt⟩
  have hq' : (middlePoints points)[if i = points.length - 1 then 0 else i + 1]? = some ⟨q.x, q.y⟩ := by
    have e : (if i = points.length - 1 then 0 else i + 1) = (i + 1) % points.length := by
      rcases next_cases hi with ⟨a, b⟩ | ⟨a, b⟩
      · rw [b, if_neg (by omega)]
      · rw [b, if_pos (by omega)]
    rw [e, middlePoints, List.getElem?_append_left (by simpa using hlt), List.getElem?_map, hq]
    rfl
  have ht : tangentAt points i = ⟨q.x -ᶠ (points[i]'hi).x, q.y -ᶠ (points[i]'hi).y, 0⟩ := by
    unfold tangentAt
    rw [List.getElem?_eq_getElem hi, hq]
  unfold rubberRing
  simp only [getOrPanic_some hp, getOrPanic_some hq', bind, Except.bind, pure, Except.pure]
  cases i with
  | zero =>
    have hq1 : points[1 % points.length]? = some q := by simpa using hq
    unfold ringOf ringPlace
    rw [frameAt_zero (List.getElem?_eq_getElem hi) hq1, ht]
    rfl
  | succ i =>
    have hf : frameAt points height (i + 1) =
        ((Vec3.cross (frameAt points height i).2 (tangentAt points (i + 1))).normalize,
          (Vec3.cross (tangentAt points (i + 1))
            (Vec3.cross (frameAt points height i).2 (tangentAt points (i + 1)))).normalize) := rfl
    unfold ringOf ringPlace
    rw [hf, ht]
    rfl

/-- ring `i` -/
def ringAt (points : List RenderVertex2D) (height thickness : F32) (S i : Nat) : List Vertex :=
  match points[i]? with
  | some p => ringOf points height thickness S i p
  | none => []

/-- all rings -/
def ringsOf (points : List RenderVertex2D) (height thickness : F32) (S : Nat) (k : Nat) : List Vertex :=
  (List.range k).flatMap (ringAt points height thickness S)

theorem ringAt_length (points : List RenderVertex2D) (height thickness : F32) (S : Nat) :
    ∀ i < points.length, (ringAt points height thickness S i).length = S := by
  intro i hi
  rw [ringAt, List.getElem?_eq_getElem hi]
  simp [ringOf]

theorem rings_fold (points : List RenderVertex2D) (height thickness : F32) (S : Nat) :
    ∀ k ≤ points.length, (List.range k).foldlM
        (fun (s : List Vertex × Vec3) i => do
          let (ring, binorm) ← rubberRing (middlePoints points) points.length S height thickness s.2 i
          pure (s.1 ++ ring, binorm)) ([], ⟨0, 0, 0⟩) =
      (.ok (ringsOf points height thickness S k, binormBefore points height k) : Res _) := by
  intro k
  induction k with
  | zero => intro _; rfl
  | succ k ih =>
    intro hk
    rw [List.range_succ, List.foldlM_append, ih (by omega)]
    simp only [bind, Except.bind, List.foldlM_cons, List.foldlM_nil, pure, Except.pure]
    rw [rubberRing_eq points height thickness S k (by omega)]
    simp only [ringsOf, ringAt, List.range_succ, List.flatMap_append, List.flatMap_cons, List.flatMap_nil,
      List.append_nil, List.getElem?_eq_getElem (show k < points.length by omega)]
    rfl

theorem rubberMiddlePoints_eq {fuel dps accuracy points}
    (h : getRgVertex2D fuel dps accuracy true = .ok points) :
    rubberMiddlePoints fuel dps accuracy = .ok (middlePoints points) := by
  unfold rubberMiddlePoints
  rw [h]
  simp only [bind, Except.bind]
  cases points with
  | nil => rfl
  | cons p ps => rfl

theorem middlePoints_length {points : List RenderVertex2D} (h : points ≠ []) :
    (middlePoints points).length = points.length + 1 := by
  cases points with
  | nil => exact absurd rfl h
  | cons p ps => simp [middlePoints]

theorem rubberMiddle_eq (vs : List Vertex) :
    rubberMiddle vs = ⟨middle (vs.map (·.x)), middle (vs.map (·.y)), middle (vs.map (·.z))⟩ := by
  have key : ∀ (vs : List Vertex) (b : (F32 × F32) × (F32 × F32) × (F32 × F32)),
      vs.foldl (fun (b : (F32 × F32) × (F32 × F32) × (F32 × F32)) v =>
        ((fmin b.1.1 v.x, fmax b.1.2 v.x), (fmin b.2.1.1 v.y, fmax b.2.1.2 v.y),
          (fmin b.2.2.1 v.z, fmax b.2.2.2 v.z))) b =
      (((vs.map (·.x)).foldl fmin b.1.1, (vs.map (·.x)).foldl fmax b.1.2),
        ((vs.map (·.y)).foldl fmin b.2.1.1, (vs.map (·.y)).foldl fmax b.2.1.2),
        ((vs.map (·.z)).foldl fmin b.2.2.1, (vs.map (·.z)).foldl fmax b.2.2.2)) := by
    intro vs
    induction vs with
    | nil => intro b; rfl
    | cons v vs ih => intro b; rw [List.foldl_cons, ih]; rfl
  unfold rubberMiddle middle
  rw [key]

theorem applyRotation_eq (vs : List Vertex) (rx ry rz height : F32) :
    applyRotation vs rx ry rz height =
      (vs.map fun v =>
        let c := rubberMiddle vs
        let p := turn (rx, ry, rz) (v.x -ᶠ c.x, v.y -ᶠ c.y, v.z -ᶠ c.z)
        let n := turn (rx, ry, rz) (v.nx, v.ny, v.nz)
        ⟨p.1, p.2.1, p.2.2, n.1, n.2.1, n.2.2, v.tu, v.tv⟩,
        ⟨(rubberMiddle vs).x, (rubberMiddle vs).y, height⟩) := by
  unfold applyRotation turn
  dsimp only
  split <;> rfl

end
end Vpin
