import Verif.Spec.Tube
import Verif.Model.Curve
import Verif.Model.Items.Ramp
/-
Specification vocabulary for the meshes of ramps, independent of the model of the generator.
-/
namespace Vpin
open Arith

/-- the outline of a strip of `n` pairs of vertices `0 1`, `2 3`, ..: over the first pair, along the
second vertices, and back along the first ones -/
def stripRim (n : Nat) : List Nat :=
  (List.range n).map (fun i => 2 * i + 1) ++ ((List.range n).map (fun i => 2 * i)).reverse

section
variable [Arith]

/-- distance in the plane between points `i` and `j` of a curve -/
def stepLength (vv : List RenderVertex3D) (i j : Nat) : F32 :=
  match vv[i]?, vv[j]? with
  | some p, some q => sqrt ((p.x -ᶠ q.x) *ᶠ (p.x -ᶠ q.x) +ᶠ (p.y -ᶠ q.y) *ᶠ (p.y -ᶠ q.y))
  | _, _ => 0

/-- length of the first `k` steps, on top of `start` -/
def wayFrom (vv : List RenderVertex3D) (start : F32) : Nat → F32
  | 0 => start
  | k + 1 => wayFrom vv start k +ᶠ stepLength vv k (k + 1)

/-- length of the whole curve -/
def wholeWay (vv : List RenderVertex3D) : F32 := wayFrom vv 0 (vv.length - 1)

/-- the share of the length of the curve up to point `i` -/
def shareAt (vv : List RenderVertex3D) (i : Nat) : F32 :=
  if 0 <ᶠ wholeWay vv then wayFrom vv (0 +ᶠ stepLength vv 0 0) i /ᶠ wholeWay vv else 0

/-- perpendicular to the way from `p` to `q`, of length one -/
def acrossStep (p q : RenderVertex3D) : Vec2 := Vec2.normalize ⟨p.y -ᶠ q.y, q.x -ᶠ p.x⟩

/-- both directions are nearly the same -/
def nearlyParallel (a b : Vec2) : Bool :=
  ((a.x -ᶠ b.x).abs <ᶠ f1em4) && ((a.y -ᶠ b.y).abs <ᶠ f1em4)

/-- where the line through `p` and `q`, moved by `n`, and the line through `q` and `r`, moved by `m`,
meet: solution of two linear equations by Cramer's rule, as the difference from `q` -/
def mitre (p q r : RenderVertex3D) (n m : Vec2) : Vec2 :=
  let (a, b) := (p.y -ᶠ q.y, q.x -ᶠ p.x)
  let c := a *ᶠ (n.x -ᶠ p.x) +ᶠ b *ᶠ (n.y -ᶠ p.y)
  let (d, e) := (r.y -ᶠ q.y, q.x -ᶠ r.x)
  let f := d *ᶠ (m.x -ᶠ r.x) +ᶠ e *ᶠ (m.y -ᶠ r.y)
  let det := a *ᶠ e -ᶠ b *ᶠ d
  let s := if det ==ᶠ 0 then 0 else f32One /ᶠ det
  ⟨q.x -ᶠ (b *ᶠ f -ᶠ e *ᶠ c) *ᶠ s, q.y -ᶠ (c *ᶠ d -ᶠ a *ᶠ f) *ᶠ s⟩

/-- the direction across the ramp at point `i`: perpendicular to the only step at the ends, and to both
steps, or towards the corner of both sides, in between -/
def acrossAt (vv : List RenderVertex3D) (i : Nat) : Vec2 :=
  match vv[i - 1]?, vv[i]?, vv[i + 1]? with
  | some p, some q, none => acrossStep p q
  | some p, some q, some r =>
    if i = 0 then acrossStep q r
    else if nearlyParallel (acrossStep p q) (acrossStep q r) then acrossStep p q
    else mitre p q r (acrossStep p q) (acrossStep q r)
  | _, _, _ => ⟨0, 0⟩

/-- the width of a ramp where the given share of its length is behind: a flat ramp goes from the bottom
width to the top width; a single wire is as wide as the wire, the others as their wires are apart -/
def widthAt (ramp : Ramp) (share : F32) : F32 :=
  match ramp.ramp_type with
  | .Flat => share *ᶠ (ramp.width_top -ᶠ ramp.width_bottom) +ᶠ ramp.width_bottom
  | .OneWire => ramp.wire_diameter
  | _ => ramp.wire_distance_x

/-- the right side at point `i`, which is `q` -/
def rightAt (ramp : Ramp) (vv : List RenderVertex3D) (i : Nat) (q : RenderVertex3D) : Vec2 :=
  Vec2.add ⟨q.x, q.y⟩ ((acrossAt vv i).scale (widthAt ramp (shareAt vv i) *ᶠ fHalf))

/-- the left side at point `i`, which is `q` -/
def leftAt (ramp : Ramp) (vv : List RenderVertex3D) (i : Nat) (q : RenderVertex3D) : Vec2 :=
  Vec2.sub ⟨q.x, q.y⟩ ((acrossAt vv i).scale (widthAt ramp (shareAt vv i) *ᶠ fHalf))

/-- the height at point `i`, which is `q`: its own height, and that of the ramp, which goes from the
bottom height to the top height -/
def heightAt (ramp : Ramp) (vv : List RenderVertex3D) (i : Nat) (q : RenderVertex3D) : F32 :=
  q.z +ᶠ shareAt vv i *ᶠ (ramp.height_top -ᶠ ramp.height_bottom) +ᶠ ramp.height_bottom

/-- a vertex without a normal -/
def bareVertex (x y z : F32) (tex : F32 × F32) : Vertex := ⟨x, y, z, 0, 0, 0, tex.1, tex.2⟩

/-- The two vertices of the floor of a flat ramp at point `i`: right and left. A texture is laid over the
whole table (of the given size), or over the ramp: from 1 on the right to 0 on the left, and from 1 at
the start to 0 at the end. -/
def floorAt (ramp : Ramp) (tableSize : F32 × F32) (vv : List RenderVertex3D) (i : Nat) (q : RenderVertex3D) :
    Vertex × Vertex :=
  let r := rightAt ramp vv i q
  let l := leftAt ramp vv i q
  let tex (p : Vec2) (u : F32) : F32 × F32 :=
    if ramp.image = [] then (0, 0)
    else if ramp.image_alignment = .World then
      (p.x *ᶠ (f32One /ᶠ tableSize.1), p.y *ᶠ (f32One /ᶠ tableSize.2))
    else (u, f32One -ᶠ shareAt vv i)
  (bareVertex r.x r.y (heightAt ramp vv i q) (tex r f32One), bareVertex l.x l.y (heightAt ramp vv i q) (tex l 0))

/-- the two vertices of a wall at point `i`: below, at the edge of the floor, and above -/
def wallAt (ramp : Ramp) (vv : List RenderVertex3D) (edge : Vec2) (height : F32) (i : Nat)
    (q : RenderVertex3D) : Vertex × Vertex :=
  let tex : F32 × F32 := (0, if ramp.image ≠ [] ∧ ramp.image_walls then f32One -ᶠ shareAt vv i else 0)
  (bareVertex edge.x edge.y (heightAt ramp vv i q) tex,
    bareVertex edge.x edge.y (heightAt ramp vv i q +ᶠ height) tex)

/-- the direction of an open curve in space at point `i`: to the next point, and at the last point, in
the plane, from the point before -/
def wireTangent (mid : List Vec2) (heights : List F32) (i : Nat) : Vec3 :=
  match mid[i - 1]?, mid[i]?, mid[i + 1]?, heights[i]?, heights[i + 1]? with
  | _, some q, some r, some h, some k => ⟨r.x -ᶠ q.x, r.y -ᶠ q.y, k -ᶠ h⟩
  | some p, some q, none, some h, none => ⟨q.x -ᶠ p.x, q.y -ᶠ p.y, h -ᶠ h⟩
  | _, _, _, _, _ => ⟨0, 0, 0⟩

/-- a frame that moves along the curve: at every point two normals, perpendicular to the direction of
the curve; the first one comes from the first two points, every other from the second normal before -/
def wireFrame (mid : List Vec2) (heights : List F32) : Nat → Vec3 × Vec3
  | 0 =>
    let t := wireTangent mid heights 0
    let up : Vec3 := match mid[0]?, mid[1]?, heights[0]?, heights[1]? with
      | some p, some q, some h, some k => ⟨q.x +ᶠ p.x, q.y +ᶠ p.y, k -ᶠ h⟩
      | _, _, _, _ => ⟨0, 0, 0⟩
    let n := Vec3.cross t up
    (n.normalize, (Vec3.cross t n).normalize)
  | i + 1 =>
    let t := wireTangent mid heights (i + 1)
    let n := Vec3.cross (wireFrame mid heights i).2 t
    (n.normalize, (Vec3.cross t n).normalize)

/-- the way from the middle of a wire to vertex `j` of the `S` vertices of ring `i`: the normal, turned
by `j / S` of a full circle about the direction of the wire, scaled to half the diameter -/
def wireSpoke (mid : List Vec2) (heights : List F32) (diameter : F32) (S i j : Nat) : Vec3 :=
  (getRotatedAxis (ofNat j *ᶠ f360 *ᶠ (f32One /ᶠ ofNat S)) (wireTangent mid heights i)
    (wireFrame mid heights i).1).scale (diameter *ᶠ fHalf)

/-- raised by some amount, if at all -/
def liftBy (lift : Option F32) (z : F32) : F32 :=
  match lift with
  | none => z
  | some d => z +ᶠ d

/-- A wire around an open curve: around every point a ring of `S` vertices; their normals point away
from the curve. Vertex `j` of ring `i` has number `i * S + j`. -/
structure Wire (mid : List Vec2) (heights : List F32) (diameter : F32) (lift : Option F32)
    (S : Nat) (vs : List Vertex) : Prop where
  vertex_count : vs.length = mid.length * S
  places : ∀ (i : Nat) p h, mid[i]? = some p → heights[i]? = some h → ∀ j < S, ∃ v d n,
    vs[i * S + j]? = some v ∧ d = wireSpoke mid heights diameter S i j ∧
    v.x = p.x +ᶠ d.x ∧ v.y = p.y +ᶠ d.y ∧ v.z = liftBy lift (h +ᶠ d.z) ∧
    v.tu = ofNat i *ᶠ (f32One /ᶠ ofNat mid.length) ∧ v.tv = (ofNat j +ᶠ v.tu) *ᶠ (f32One /ᶠ ofNat S) ∧
    n = Vec3.mk (p.x +ᶠ d.x -ᶠ p.x) (p.y +ᶠ d.y -ᶠ p.y) (h +ᶠ d.z -ᶠ h) ∧
    (v.nx, v.ny, v.nz) = if 0 <ᶠ n.length then (n.x /ᶠ n.length, n.y /ᶠ n.length, n.z /ᶠ n.length)
      else (0, 0, 0)

/-- the middle of a single wire, from both sides of the ramp: halfway between them, moved by their
difference divided by the diameter -/
def singleWireAt (ramp : Ramp) (r l : Vec2) : Vec2 :=
  let s := if ramp.wire_diameter ==ᶠ 0 then 0 else f32One /ᶠ ramp.wire_diameter
  ⟨(r.x +ᶠ l.x) *ᶠ fHalf +ᶠ (r.x -ᶠ l.x) *ᶠ s, (r.y +ᶠ l.y) *ᶠ fHalf +ᶠ (r.y -ᶠ l.y) *ᶠ s⟩

/-- The wires of a ramp: the line each follows, and how far it is raised. Two lower wires, three units
up, and one or two upper wires, half the vertical distance up. -/
def wiresOf (ramp : Ramp) (vv : List RenderVertex3D) : List (List Vec2 × Option F32) :=
  let right := vv.mapIdx (rightAt ramp vv)
  let left := vv.mapIdx (leftAt ramp vv)
  let up := ramp.wire_distance_y *ᶠ fHalf
  match ramp.ramp_type with
  | .OneWire => [(vv.mapIdx fun i q => singleWireAt ramp (rightAt ramp vv i q) (leftAt ramp vv i q), none)]
  | .TwoWire => [(right, some fThree), (left, some fThree)]
  | .ThreeWireLeft => [(right, some fThree), (left, some fThree), (left, some up)]
  | .ThreeWireRight => [(right, some fThree), (left, some fThree), (right, some up)]
  | .FourWire => [(right, some fThree), (left, some fThree), (right, some up), (left, some up)]
  | .Flat => []

/-- The line through `p` and `q` has the equation `a x + b y + c = 0`. The distance of a point from it
and the foot of the perpendicular; none if `p` and `q` coincide. -/
def footOn (p q : RenderVertex3D) (x y : F32) : Option (F32 × Vec2) :=
  let a := p.y -ᶠ q.y
  let b := q.x -ᶠ p.x
  let c := (a *ᶠ p.x +ᶠ b *ᶠ p.y).neg
  if sqrt (a *ᶠ a +ᶠ b *ᶠ b) <ᶠ f1em12 then none
  else
    let d := (a *ᶠ x +ᶠ b *ᶠ y +ᶠ c).abs /ᶠ sqrt (a *ᶠ a +ᶠ b *ᶠ b)
    -- the perpendicular through the point: `-b x + a y + f = 0`
    let f := (b.neg *ᶠ x +ᶠ a *ᶠ y).neg
    let det := a *ᶠ a -ᶠ b *ᶠ b.neg
    let s := if det ==ᶠ 0 then 0 else f32One /ᶠ det
    some (d, ⟨(b *ᶠ f -ᶠ a *ᶠ c) *ᶠ s, (c *ᶠ b.neg -ᶠ a *ᶠ f) *ᶠ s⟩)

/-- `c` lies in the rectangle with the corners `p` and `q`, widened by 0.1 -/
def withinBox (p q : RenderVertex3D) (c : Vec2) : Prop :=
  (fmin p.x q.x -ᶠ f0p1) ≤ᶠ c.x ∧ c.x ≤ᶠ (fmax p.x q.x +ᶠ f0p1) ∧
    (fmin p.y q.y -ᶠ f0p1) ≤ᶠ c.y ∧ c.y ≤ᶠ (fmax p.y q.y +ᶠ f0p1)

/-- `c` is the foot of the perpendicular from `(x, y)` on segment `i` of the curve, at the finite
distance `d` -/
def FootOnSegment (vv : List RenderVertex3D) (x y : F32) (i : Nat) (d : F32) (c : Vec2) : Prop :=
  ∃ p q, vv[i]? = some p ∧ vv[i + 1]? = some q ∧ footOn p q x y = some (d, c) ∧ withinBox p q c ∧ d <ᶠ fMax

/-- length of the curve up to point `k` -/
def lengthTo (vv : List RenderVertex3D) : Nat → F32
  | 0 => 0
  | k + 1 => lengthTo vv k +ᶠ stepLength vv (k + 1) k

end
end Vpin
