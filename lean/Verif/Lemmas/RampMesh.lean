import Verif.Model.RampMesh
import Verif.Lemmas.RubberMesh
import Verif.Spec.Ramp
/-
The outline of a ramp, strips and open tubes.
-/
namespace Vpin
open Arith

section
variable [Arith]

theorem rampLength_eq (vv : List RenderVertex3D) : rampLength vv = .ok (wholeWay vv) := by
  unfold rampLength wholeWay
  have key : ∀ k ≤ vv.length - 1, (List.range k).foldlM (fun total i => do
      let v1 ← getOrPanic vv i
      let v2 ← getOrPanic vv (i + 1)
      pure (total +ᶠ planeLength v1 v2)) 0 = (.ok (wayFrom vv 0 k) : Res F32) := by
    intro k
    induction k with
    | zero => intro _; rfl
    | succ k ih =>
      intro hk
      have h1 : k < vv.length := by omega
      have h2 : k + 1 < vv.length := by omega
      rw [List.range_succ, List.foldlM_append, ih (by omega)]
      simp only [bind, Except.bind, List.foldlM_cons, List.foldlM_nil, pure, Except.pure,
        getOrPanic_some (List.getElem?_eq_getElem h1), getOrPanic_some (List.getElem?_eq_getElem h2),
        wayFrom, stepLength, List.getElem?_eq_getElem h1, List.getElem?_eq_getElem h2]
      rfl
  exact key _ (Nat.le_refl _)

theorem rampNormal_eq {vv : List RenderVertex3D} (h2 : 2 ≤ vv.length) {i : Nat} (hi : i < vv.length)
    {p q r} (hp : vv[if i > 0 then i - 1 else i]? = some p) (hq : vv[i]? = some q)
    (hr : vv[if i < vv.length - 1 then i + 1 else i]? = some r) :
    rampNormal i vv.length p q r = acrossAt vv i := by
  have hp' : vv[i - 1]? = some p := by
    rw [← hp]; congr 1; split <;> omega
  unfold rampNormal acrossAt
  rw [hp', hq]
  by_cases hl : i = vv.length - 1
  · rw [List.getElem?_eq_none (by omega)]
    simp only [hl, if_true, acrossStep]
  · rw [if_pos (by omega)] at hr
    rw [hr]
    simp only [hl, if_false]
    by_cases h0 : i = 0
    · simp only [h0, if_true, acrossStep]
    · simp only [h0, if_false]
      unfold nearlyParallel acrossStep mitre
      rfl

/-- the value of the loop at point `i` -/
def rampPointOf (ramp : Ramp) (vv : List RenderVertex3D) (incWidth : Bool) (i : Nat) (q : RenderVertex3D) :
    RampPoint :=
  let half := rampWidth ramp incWidth (shareAt vv i) *ᶠ fHalf
  ⟨Vec2.add ⟨q.x, q.y⟩ ((acrossAt vv i).scale half), Vec2.sub ⟨q.x, q.y⟩ ((acrossAt vv i).scale half),
    heightAt ramp vv i q, f32One -ᶠ shareAt vv i⟩

/-- the length passed on to point `i` -/
def wayBefore (vv : List RenderVertex3D) : Nat → F32
  | 0 => 0
  | i + 1 => wayFrom vv (0 +ᶠ stepLength vv 0 0) i

theorem rampPoint_eq (ramp : Ramp) {vv : List RenderVertex3D} (incWidth : Bool) (h2 : 2 ≤ vv.length)
    {i : Nat} (hi : i < vv.length) :
    rampPoint ramp vv incWidth (wholeWay vv) (wayBefore vv i) i =
      .ok (rampPointOf ramp vv incWidth i (vv[i]'hi), wayFrom vv (0 +ᶠ stepLength vv 0 0) i) := by
  obtain ⟨p, hp⟩ : ∃ p, vv[if i > 0 then i - 1 else i]? = some p :=
    ⟨_, List.getElem?_eq_getElem (by split <;> omega)⟩
  obtain ⟨r, hr⟩ : ∃ r, vv[if i < vv.length - 1 then i + 1 else i]? = some r :=
    ⟨_, List.getElem?_eq_getElem (by split <;> omega)⟩
  have hq := List.getElem?_eq_getElem hi
  have hw : wayBefore vv i +ᶠ planeLength p (vv[i]'hi) = wayFrom vv (0 +ᶠ stepLength vv 0 0) i := by
    cases i with
    | zero =>
      have : p = vv[0]'hi := by
        simp only [Nat.lt_irrefl, if_false, gt_iff_lt] at hp
        rw [hq] at hp; exact (Option.some.inj hp).symm
      subst this
      simp only [wayBefore, wayFrom, stepLength, hq, planeLength]
    | succ i =>
      simp only [Nat.succ_pos, gt_iff_lt, if_true, Nat.add_sub_cancel] at hp
      simp only [wayBefore, wayFrom, stepLength, hq, hp, planeLength]
  unfold rampPoint
  simp only [getOrPanic_some hp, getOrPanic_some hr, getOrPanic_some hq, bind, Except.bind, pure,
    Except.pure, hw, rampNormal_eq h2 hi hp hq hr]
  rfl

/-- all points -/
def rampPointsOf (ramp : Ramp) (vv : List RenderVertex3D) (incWidth : Bool) : List RampPoint :=
  vv.mapIdx fun i q => rampPointOf ramp vv incWidth i q

theorem getRampVertex_eq (ramp : Ramp) {vv : List RenderVertex3D} (incWidth : Bool) (h2 : 2 ≤ vv.length) :
    getRampVertex ramp vv incWidth =
      .ok ⟨(rampPointsOf ramp vv incWidth).map (·.right) ++
          ((rampPointsOf ramp vv incWidth).map (·.left)).reverse,
        (rampPointsOf ramp vv incWidth).map (·.height), (rampPointsOf ramp vv incWidth).map (·.ratio)⟩ := by
  have key : ∀ k ≤ vv.length, (List.range k).foldlM
      (fun (s : List RampPoint × F32) i => do
        let (p, current) ← rampPoint ramp vv incWidth (wholeWay vv) s.2 i
        pure (s.1 ++ [p], current)) ([], 0) =
      (.ok ((rampPointsOf ramp vv incWidth).take k, wayBefore vv k) : Res _) := by
    intro k
    induction k with
    | zero => intro _; rfl
    | succ k ih =>
      intro hk
      rw [List.range_succ, List.foldlM_append, ih (by omega)]
      simp only [bind, Except.bind, List.foldlM_cons, List.foldlM_nil, pure, Except.pure]
      rw [rampPoint_eq ramp incWidth h2 (show k < vv.length by omega)]
      simp only [List.take_add_one, rampPointsOf, List.getElem?_mapIdx,
        List.getElem?_eq_getElem (show k < vv.length by omega)]
      rfl
  unfold getRampVertex
  rw [if_neg (by omega), rampLength_eq]
  have := key _ (Nat.le_refl _)
  simp only [bind, Except.bind] at this ⊢
  rw [this]
  rw [List.take_of_length_le (by simp [rampPointsOf])]
  rfl

theorem outline_get (ramp : Ramp) (vv : List RenderVertex3D) (incWidth : Bool) {i : Nat} {q}
    (hq : vv[i]? = some q) :
    ((rampPointsOf ramp vv incWidth).map (·.right) ++
      ((rampPointsOf ramp vv incWidth).map (·.left)).reverse)[i]? =
        some (rampPointOf ramp vv incWidth i q).right ∧
    ((rampPointsOf ramp vv incWidth).map (·.right) ++
      ((rampPointsOf ramp vv incWidth).map (·.left)).reverse)[vv.length * 2 - i - 1]? =
        some (rampPointOf ramp vv incWidth i q).left ∧
    ((rampPointsOf ramp vv incWidth).map (·.height))[i]? = some (rampPointOf ramp vv incWidth i q).height ∧
    ((rampPointsOf ramp vv incWidth).map (·.ratio))[i]? = some (rampPointOf ramp vv incWidth i q).ratio := by
  have hi : i < vv.length := (List.getElem?_eq_some_iff.1 hq).1
  have hl : (rampPointsOf ramp vv incWidth).length = vv.length := by simp [rampPointsOf]
  have hg : (rampPointsOf ramp vv incWidth)[i]? = some (rampPointOf ramp vv incWidth i q) := by
    simp [rampPointsOf, List.getElem?_mapIdx, hq]
  refine ⟨?_, ?_, ?_, ?_⟩
  · rw [List.getElem?_append_left (by simpa [hl] using hi), List.getElem?_map, hg]; rfl
  · rw [List.getElem?_append_right (by simp [hl]; omega), List.length_map, hl,
      List.getElem?_reverse (by simp [hl]; omega), List.length_map, hl,
      show vv.length - 1 - (vv.length * 2 - i - 1 - vv.length) = i by omega, List.getElem?_map, hg]
    rfl
  · rw [List.getElem?_map, hg]; rfl
  · rw [List.getElem?_map, hg]; rfl

theorem rampWidth_eq (ramp : Ramp) (incWidth : Bool) (h : isHabitrail ramp = true → incWidth = false)
    (share : F32) : rampWidth ramp incWidth share = widthAt ramp share := by
  unfold rampWidth widthAt
  revert h
  cases ht : ramp.ramp_type <;> intro h <;> simp_all [isHabitrail]

/-! ### Wires -/

/-- ring `i` of a wire -/
def wireRingOf (diameter : F32) (S : Nat) (mp : List Vec2) (heights : List F32) (i : Nat) : List Vertex :=
  match mp[i]?, heights[i]? with
  | some p, some h => (List.range S).map (wireVertex diameter S p h (wireTangent mp heights i)
      (wireFrame mp heights i).1 (ofNat i *ᶠ (f32One /ᶠ ofNat mp.length)))
  | _, _ => []

/-- the second normal before ring `i` -/
def wireBinorm (mp : List Vec2) (heights : List F32) : Nat → Vec3
  | 0 => ⟨0, 0, 0⟩
  | i + 1 => (wireFrame mp heights i).2

theorem wireFrame_zero {mp : List Vec2} {heights : List F32} {p q h k} (hp : mp[0]? = some p)
    (hq : mp[1]? = some q) (hh : heights[0]? = some h) (hk : heights[1]? = some k) :
    wireFrame mp heights 0 =
      ((Vec3.cross (wireTangent mp heights 0) ⟨q.x +ᶠ p.x, q.y +ᶠ p.y, k -ᶠ h⟩).normalize,
        (Vec3.cross (wireTangent mp heights 0) (Vec3.cross (wireTangent mp heights 0)
          ⟨q.x +ᶠ p.x, q.y +ᶠ p.y, k -ᶠ h⟩)).normalize) := by
  unfold wireFrame
  rw [hp, hq, hh, hk]

theorem wireRing_eq (diameter : F32) (S : Nat) {mp : List Vec2} {heights : List F32} (h2 : 2 ≤ mp.length)
    (hl : heights.length = mp.length) {i : Nat} (hi : i < mp.length) :
    wireRing diameter mp.length S mp heights (wireBinorm mp heights i) i =
      .ok (wireRingOf diameter S mp heights i, (wireFrame mp heights i).2) := by
  have hq := List.getElem?_eq_getElem hi
  have hh := List.getElem?_eq_getElem (show i < heights.length by omega)
  by_cases hlast : i = mp.length - 1
  · have hp := List.getElem?_eq_getElem (show i - 1 < mp.length by omega)
    have ht : wireTangent mp heights i = ⟨mp[i].x -ᶠ mp[i - 1].x, mp[i].y -ᶠ mp[i - 1].y,
        heights[i] -ᶠ heights[i]⟩ := by
      unfold wireTangent
      rw [hp, hq, hh, List.getElem?_eq_none (by omega), List.getElem?_eq_none (by omega)]
    unfold wireRing
    rw [if_pos hlast]
    have h0 : i > 0 := by omega
    simp only [getOrPanic_some hq, getOrPanic_some hh, getOrPanic_some hp, bind, Except.bind, pure,
      Except.pure, if_pos (And.intro hlast h0)]
    unfold wireRingOf
    rw [hq, hh]
    dsimp only
    cases i with
    | zero => omega
    | succ i =>
      have hf : wireFrame mp heights (i + 1) =
        ((Vec3.cross (wireFrame mp heights i).2 (wireTangent mp heights (i + 1))).normalize,
          (Vec3.cross (wireTangent mp heights (i + 1))
            (Vec3.cross (wireFrame mp heights i).2 (wireTangent mp heights (i + 1)))).normalize) := rfl
      rw [hf, ht]
      rfl
  · have hp2 := List.getElem?_eq_getElem (show i + 1 < mp.length by omega)
    have hh2 := List.getElem?_eq_getElem (show i + 1 < heights.length by omega)
    have ht : wireTangent mp heights i = ⟨mp[i + 1].x -ᶠ mp[i].x, mp[i + 1].y -ᶠ mp[i].y,
        heights[i + 1] -ᶠ heights[i]⟩ := by
      unfold wireTangent
      rw [hq, hp2, hh, hh2]
    unfold wireRing
    rw [if_neg hlast]
    simp only [getOrPanic_some hq, getOrPanic_some hh, getOrPanic_some hp2, getOrPanic_some hh2, bind,
      Except.bind, pure, Except.pure, if_neg (fun h : i = mp.length - 1 ∧ i > 0 => hlast h.1)]
    unfold wireRingOf
    rw [hq, hh]
    dsimp only
    cases i with
    | zero =>
      rw [wireFrame_zero hq hp2 hh hh2, ht]
      rfl
    | succ i =>
      have hf : wireFrame mp heights (i + 1) =
        ((Vec3.cross (wireFrame mp heights i).2 (wireTangent mp heights (i + 1))).normalize,
          (Vec3.cross (wireTangent mp heights (i + 1))
            (Vec3.cross (wireFrame mp heights i).2 (wireTangent mp heights (i + 1)))).normalize) := rfl
      rw [hf, ht]
      rfl

theorem createWire_eq (diameter : F32) (S : Nat) {mp : List Vec2} {heights : List F32} (h2 : 2 ≤ mp.length)
    (hl : heights.length = mp.length) :
    createWire diameter mp.length S mp heights =
      .ok ((List.range mp.length).flatMap (wireRingOf diameter S mp heights)) := by
  have key : ∀ k ≤ mp.length, (List.range k).foldlM
      (fun (s : List Vertex × Vec3) i => do
        let (ring, binorm) ← wireRing diameter mp.length S mp heights s.2 i
        pure (s.1 ++ ring, binorm)) ([], ⟨0, 0, 0⟩) =
      (.ok ((List.range k).flatMap (wireRingOf diameter S mp heights), wireBinorm mp heights k) : Res _) := by
    intro k
    induction k with
    | zero => intro _; rfl
    | succ k ih =>
      intro hk
      rw [List.range_succ, List.foldlM_append, ih (by omega)]
      simp only [bind, Except.bind, List.foldlM_cons, List.foldlM_nil, pure, Except.pure]
      rw [wireRing_eq diameter S h2 hl (show k < mp.length by omega)]
      simp only [List.flatMap_append, List.flatMap_cons, List.flatMap_nil, List.append_nil]
      rfl
  unfold createWire
  have := key _ (Nat.le_refl _)
  simp only [bind, Except.bind] at this ⊢
  rw [this]
  rfl

theorem wireRingOf_length (diameter : F32) (S : Nat) {mp : List Vec2} {heights : List F32}
    (hl : heights.length = mp.length) :
    ∀ i < mp.length, (wireRingOf diameter S mp heights i).length = S := by
  intro i hi
  unfold wireRingOf
  rw [List.getElem?_eq_getElem hi, List.getElem?_eq_getElem (show i < heights.length by omega)]
  simp

theorem wireVertex_spec (diameter : F32) (S : Nat) (p : Vec2) (h : F32) (t n : Vec3) (u : F32) (j : Nat)
    (d : Vec3) (hd : d = (getRotatedAxis (ofNat j *ᶠ f360 *ᶠ (f32One /ᶠ ofNat S)) t n).scale (diameter *ᶠ fHalf))
    (m : Vec3) (hm : m = Vec3.mk (p.x +ᶠ d.x -ᶠ p.x) (p.y +ᶠ d.y -ᶠ p.y) (h +ᶠ d.z -ᶠ h)) :
    let v := wireVertex diameter S p h t n u j
    v.x = p.x +ᶠ d.x ∧ v.y = p.y +ᶠ d.y ∧ v.z = h +ᶠ d.z ∧ v.tu = u ∧
      v.tv = (ofNat j +ᶠ u) *ᶠ (f32One /ᶠ ofNat S) ∧
      (v.nx, v.ny, v.nz) = if 0 <ᶠ m.length then (m.x /ᶠ m.length, m.y /ᶠ m.length, m.z /ᶠ m.length)
        else (0, 0, 0) := by
  subst hm
  subst hd
  dsimp only
  unfold wireVertex
  dsimp only
  split
  · exact ⟨rfl, rfl, rfl, rfl, rfl, rfl⟩
  · exact ⟨rfl, rfl, rfl, rfl, rfl, rfl⟩

theorem wire_plain (diameter : F32) (S : Nat) {mp : List Vec2} {heights : List F32}
    (hl : heights.length = mp.length) :
    Wire mp heights diameter none S ((List.range mp.length).flatMap (wireRingOf diameter S mp heights)) where
  vertex_count := by rw [flatMap_range_length (wireRingOf_length diameter S hl), Nat.mul_comm]
  places := by
    intro i p h hp hh j hj
    have hi : i < mp.length := (List.getElem?_eq_some_iff.1 hp).1
    refine ⟨wireVertex diameter S p h (wireTangent mp heights i)
      (wireFrame mp heights i).1 (ofNat i *ᶠ (f32One /ᶠ ofNat mp.length)) j,
      wireSpoke mp heights diameter S i j,
      ⟨p.x +ᶠ (wireSpoke mp heights diameter S i j).x -ᶠ p.x,
        p.y +ᶠ (wireSpoke mp heights diameter S i j).y -ᶠ p.y,
        h +ᶠ (wireSpoke mp heights diameter S i j).z -ᶠ h⟩, ?_, rfl, ?_⟩
    · rw [Nat.mul_comm i S, flatMap_range_get (wireRingOf_length diameter S hl) hi hj, wireRingOf, hp, hh]
      dsimp only
      rw [List.getElem?_map, List.getElem?_range hj]
      rfl
    · obtain ⟨a, b, c, d, e, f⟩ := wireVertex_spec diameter S p h (wireTangent mp heights i)
        (wireFrame mp heights i).1 (ofNat i *ᶠ (f32One /ᶠ ofNat mp.length)) j _ rfl _ rfl
      refine ⟨a, b, c, d, ?_, rfl, f⟩
      rw [e, d]

theorem wire_raised {mp : List Vec2} {heights : List F32} {diameter : F32} {S : Nat} {vs : List Vertex}
    (h : Wire mp heights diameter none S vs) (d : F32) :
    Wire mp heights diameter (some d) S (raiseWire d vs) where
  vertex_count := by rw [raiseWire, List.length_map, h.vertex_count]
  places := by
    intro i p z hp hz j hj
    obtain ⟨v, s, n, hv, hs, hx, hy, hz, hu, htv, hn, hnn⟩ := h.places i p z hp hz j hj
    refine ⟨{ v with z := v.z +ᶠ d }, s, n, ?_, hs, hx, hy, ?_, hu, htv, hn, hnn⟩
    · rw [raiseWire, List.getElem?_map, hv]; rfl
    · show v.z +ᶠ d = _
      rw [hz]; rfl

end
end Vpin
