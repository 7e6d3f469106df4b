import Verif.Model.MeshNumbers
import Verif.Spec.Ramp
import Verif.Spec.Prism
/-
C92: the calculations of the models of the mesh generators are those of `Model/MeshNumbers` with the numbers of the code.
-/
namespace Vpin
open Arith

/-- the same vector -/
def Vec3.any (v : Vec3) : V3 F32 := ⟨v.x, v.y, v.z⟩
def Vec2.any (v : Vec2) : Any.V2 F32 := ⟨v.x, v.y⟩
def RenderVertex3D.any (v : RenderVertex3D) : Any.V2 F32 := ⟨v.x, v.y⟩
def RenderVertex2D.any (v : RenderVertex2D) : Any.V2 F32 := ⟨v.x, v.y⟩
def Vertex.any (v : Vertex) : V3 F32 := ⟨v.x, v.y, v.z⟩

variable [Arith]

theorem unit3_any (v : Vec3) : v.normalize.any = Any.unit3 v.any := by
  show (if v.length ==ᶠ 0 then (⟨0, 0, 0⟩ : Vec3) else ⟨v.x /ᶠ v.length, v.y /ᶠ v.length, v.z /ᶠ v.length⟩).any =
    if v.length ==ᶠ 0 then (⟨0, 0, 0⟩ : V3 F32) else ⟨v.x /ᶠ v.length, v.y /ᶠ v.length, v.z /ᶠ v.length⟩
  split <;> rfl

theorem unit2_any (v : Vec2) : v.normalize.any = Any.unit2 v.any := by
  show (if v.length ==ᶠ 0 then (⟨0, 0⟩ : Vec2) else ⟨v.x /ᶠ v.length, v.y /ᶠ v.length⟩).any =
    if v.length ==ᶠ 0 then (⟨0, 0⟩ : Any.V2 F32) else ⟨v.x /ᶠ v.length, v.y /ᶠ v.length⟩
  split <;> rfl

theorem cross_any (a b : Vec3) : (Vec3.cross a b).any = Any.cross a.any b.any := rfl

theorem rotatedAxis_any (a : F32) (t n : Vec3) : (getRotatedAxis a t n).any = Any.rotatedAxis a t.any n.any := by
  unfold Any.rotatedAxis
  rw [← unit3_any]
  rfl

theorem wireFrame_any {mid : List Vec2} {heights : List F32} {p q : Vec2} {h k : F32}
    (hp : mid[0]? = some p) (hq : mid[1]? = some q) (hh : heights[0]? = some h) (hk : heights[1]? = some k) (i : Nat) :
    ((wireFrame mid heights i).1.any, (wireFrame mid heights i).2.any) =
      Any.frame Any.cross (fun i => (wireTangent mid heights i).any) ⟨q.x +ᶠ p.x, q.y +ᶠ p.y, k -ᶠ h⟩ i := by
  induction i with
  | zero =>
    unfold wireFrame Any.frame
    rw [hp, hq, hh, hk]
    dsimp only
    rw [unit3_any, unit3_any]
    rfl
  | succ i ih =>
    unfold wireFrame Any.frame
    rw [← ih]
    dsimp only
    rw [unit3_any, unit3_any]
    rfl

theorem frameAt_any {points : List RenderVertex2D} {height : F32} {p q : RenderVertex2D}
    (hp : points[0]? = some p) (hq : points[1 % points.length]? = some q) (i : Nat) :
    ((frameAt points height i).1.any, (frameAt points height i).2.any) =
      Any.frame Any.crossPlane (fun i => (tangentAt points i).any) ⟨q.x +ᶠ p.x, q.y +ᶠ p.y, height *ᶠ fTwo⟩ i := by
  induction i with
  | zero =>
    unfold frameAt Any.frame
    rw [hp, hq]
    dsimp only
    rw [unit3_any, unit3_any]
    rfl
  | succ i ih =>
    unfold frameAt Any.frame
    rw [← ih]
    dsimp only
    rw [unit3_any, unit3_any]
    rfl

/-- **C92**: the rings of the wires of a ramp (`C67_wires`) and of a rubber (`C64_rubber`) are rings of `Any.spoke`. -/
theorem C92_same_rings :
    (∀ (mid : List Vec2) (heights : List F32) (diameter : F32) (S i j : Nat) (p q : Vec2) (h k : F32),
      mid[0]? = some p → mid[1]? = some q → heights[0]? = some h → heights[1]? = some k →
      (wireSpoke mid heights diameter S i j).any =
        Any.spoke Any.cross (fun i => (wireTangent mid heights i).any) ⟨q.x +ᶠ p.x, q.y +ᶠ p.y, k -ᶠ h⟩ diameter S i j) ∧
    (∀ (points : List RenderVertex2D) (height thickness : F32) (S i j : Nat) (p0 q0 p : RenderVertex2D),
      points[0]? = some p0 → points[1 % points.length]? = some q0 →
      let d := Any.spoke Any.crossPlane (fun i => (tangentAt points i).any)
        ⟨q0.x +ᶠ p0.x, q0.y +ᶠ p0.y, height *ᶠ fTwo⟩ thickness S i j
      ringPlace points height thickness S i j p = (p.x +ᶠ d.x, p.y +ᶠ d.y, height +ᶠ d.z)) := by
  constructor
  · intro mid heights diameter S i j p q h k hp hq hh hk
    unfold Any.spoke
    rw [← wireFrame_any hp hq hh hk i]
    dsimp only
    rw [← rotatedAxis_any]
    rfl
  · intro points height thickness S i j p0 q0 p hp hq
    unfold Any.spoke
    rw [← frameAt_any hp hq i]
    dsimp only
    rw [← rotatedAxis_any]
    rfl

theorem acrossStep_any (p q : RenderVertex3D) : (acrossStep p q).any = Any.across p.any q.any := unit2_any _

/-- **C92**: the sides of a ramp (`C66_flat`, `C67_wires`) are `Any.sides`, across it at the ends and `Any.acrossCorner` in
between. -/
theorem C92_same_sides (ramp : Ramp) (vv : List RenderVertex3D) (i : Nat) (q : RenderVertex3D) :
    ((rightAt ramp vv i q).any, (leftAt ramp vv i q).any) =
      Any.sides q.any (acrossAt vv i).any (widthAt ramp (shareAt vv i)) ∧
    (∀ r, vv[0]? = some q → vv[1]? = some r → (acrossAt vv 0).any = Any.across q.any r.any) ∧
    (∀ p, vv[i]? = some p → vv[i + 1]? = some q → vv[i + 2]? = none → (acrossAt vv (i + 1)).any = Any.across p.any q.any) ∧
    (∀ p r, vv[i]? = some p → vv[i + 1]? = some q → vv[i + 2]? = some r →
      (acrossAt vv (i + 1)).any = Any.acrossCorner p.any q.any r.any) := by
  refine ⟨rfl, ?_, ?_, ?_⟩
  · intro r hq hr
    unfold acrossAt
    rw [show (0 : Nat) - 1 = 0 from rfl, hq, hr]
    exact acrossStep_any q r
  · intro p hp hq hn
    unfold acrossAt
    rw [show i + 1 - 1 = i from rfl, hp, hq, hn]
    exact acrossStep_any p q
  · intro p r hp hq hr
    unfold acrossAt
    rw [show i + 1 - 1 = i from rfl, hp, hq, hr]
    dsimp only
    rw [if_neg (by omega)]
    unfold Any.acrossCorner
    rw [← acrossStep_any, ← acrossStep_any]
    show (if nearlyParallel (acrossStep p q) (acrossStep q r) then _ else _ : Vec2).any =
      if nearlyParallel (acrossStep p q) (acrossStep q r) then (acrossStep p q).any else _
    split
    · rfl
    · rfl

/-- **C92**: the distance and the foot of `C68_closest` are `Any.foot`, the rotation of `C64_rubber` is `Any.turned`, and
the corners of a bumper's or primitive's prism are `Any.prismCorner`. -/
theorem C92_same_shapes :
    (∀ (p q : RenderVertex3D) (x y : F32), (footOn p q x y).map (fun r => (r.1, r.2.any)) = Any.foot p.any q.any x y) ∧
    (∀ rot v : F32 × F32 × F32, V3.mk (turn rot v).1 (turn rot v).2.1 (turn rot v).2.2 =
      Any.turned ⟨rot.1, rot.2.1, rot.2.2⟩ ⟨v.1, v.2.1, v.2.2⟩) ∧
    (∀ n i : Nat, Any.V2.mk (prismCorner n i).1 (prismCorner n i).2 = Any.prismCorner n i) := by
  refine ⟨?_, ?_, fun _ _ => rfl⟩
  · intro p q x y
    unfold footOn Any.foot
    dsimp only
    show Option.map _ (if _ then none else _) = if _ then none else _
    split <;> rename_i h
    · exact (if_pos h).symm
    · exact (if_neg h).symm
  · intro rot v
    unfold turn Any.turned
    dsimp only
    show V3.mk (if ((rot.1 ==ᶠ 0) && (rot.2.1 ==ᶠ 0) && (rot.2.2 ==ᶠ 0)) = true then v else _).1 _ _ =
      if ((rot.1 ==ᶠ 0) && (rot.2.1 ==ᶠ 0) && (rot.2.2 ==ᶠ 0)) = true then _ else _
    split <;> rfl

theorem faceNormal_any {vs : List Vertex} {t : Tri} {a b c : Vertex} (ha : vs[t.1]? = some a) (hb : vs[t.2.1]? = some b)
    (hc : vs[t.2.2]? = some c) : (faceNormal vs t).any = Any.faceNormal a.any b.any c.any := by
  unfold faceNormal Any.faceNormal
  rw [ha, hb, hc]
  exact unit3_any _

theorem sum_any (ns : List Vec3) (s : Vec3) :
    (ns.foldl (fun a b => Vec3.mk (a.x +ᶠ b.x) (a.y +ᶠ b.y) (a.z +ᶠ b.z)) s).any =
      (ns.map Vec3.any).foldl (fun a b => V3.mk (a.x +ᶠ b.x) (a.y +ᶠ b.y) (a.z +ᶠ b.z)) s.any := by
  induction ns generalizing s with
  | nil => rfl
  | cons n ns ih => exact ih _

/-- **C92**: the normals of `C65_normals` and of the sides of walls (`C62_sides`) are `Any.faceNormal`, `Any.mean` and
`Any.wallNormal`. -/
theorem C92_same_normals :
    (∀ (vs : List Vertex) (t : Tri) (a b c : Vertex), vs[t.1]? = some a → vs[t.2.1]? = some b → vs[t.2.2]? = some c →
      (faceNormal vs t).any = Any.faceNormal a.any b.any c.any) ∧
    (∀ ns : List Vec3, (meanDirection ns).any = Any.mean (ns.map Vec3.any)) ∧
    (∀ (smooth : Bool) (o p q r : RenderVertex2D),
      let n := pointNormal smooth (flatNormal o p) (flatNormal p q) (flatNormal q r)
      V3.mk n.x n.y.neg 0 = Any.wallNormal smooth (Any.sideNormal o.any p.any) (Any.sideNormal p.any q.any)
        (Any.sideNormal q.any r.any)) := by
  have flat : ∀ p q : RenderVertex2D, (flatNormal p q).any = Any.sideNormal p.any q.any := by
    intro p q
    unfold flatNormal Any.sideNormal
    dsimp only
    show (if _ then _ else _ : Vec2).any = if _ then _ else _
    split <;> rename_i h
    · exact (if_pos h).symm
    · exact (if_neg h).symm
  refine ⟨fun vs t a b c => faceNormal_any, ?_, ?_⟩
  · intro ns
    have e : (List.foldl (fun a b => Vec3.mk (a.x +ᶠ b.x) (a.y +ᶠ b.y) (a.z +ᶠ b.z)) ⟨0, 0, 0⟩ ns).any =
        Any.total (ns.map Vec3.any) := sum_any ns ⟨0, 0, 0⟩
    unfold meanDirection Any.mean
    rw [← e]
    dsimp only
    generalize List.foldl _ _ ns = s
    unfold Any.direction
    show (if _ then _ else _ : Vec3).any = if _ then _ else _
    split <;> rename_i h
    · exact (if_pos h).symm
    · exact (if_neg h).symm
  · intro smooth o p q r
    dsimp only
    unfold Any.wallNormal pointNormal
    rw [← flat, ← flat, ← flat]
    have e := unit2_any (if smooth then Vec2.add (flatNormal p q) (flatNormal q r) else flatNormal o p)
    have e2 : (if smooth then Vec2.add (flatNormal p q) (flatNormal q r) else flatNormal o p).any =
        if smooth then (⟨Ops.add (flatNormal p q).any.x (flatNormal q r).any.x,
          Ops.add (flatNormal p q).any.y (flatNormal q r).any.y⟩ : Any.V2 F32) else (flatNormal o p).any := by
      split <;> rfl
    rw [e2] at e
    dsimp only
    rw [← e]
    rfl

end Vpin
