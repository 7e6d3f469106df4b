import Verif.Model.Arith
import Verif.Spec.Wall
/-
Specification vocabulary for vertex normals and for tubes around a curve, independent of the model of
the generators.
-/
namespace Vpin
open Arith

section
variable [Arith]

/-- the normal of a triangle: perpendicular to the edges from its first corner, of length one -/
def faceNormal (vs : List Vertex) (t : Tri) : Vec3 :=
  match vs[t.1]?, vs[t.2.1]?, vs[t.2.2]? with
  | some a, some b, some c =>
    (Vec3.cross ⟨b.x -ᶠ a.x, b.y -ᶠ a.y, b.z -ᶠ a.z⟩ ⟨c.x -ᶠ a.x, c.y -ᶠ a.y, c.z -ᶠ a.z⟩).normalize
  | _, _, _ => ⟨0, 0, 0⟩

/-- the normals of the triangles around vertex `k`, once for every corner at `k` -/
def normalsAround (vs : List Vertex) (ts : List Tri) (k : Nat) : List Vec3 :=
  ts.flatMap fun t => ([t.1, t.2.1, t.2.2].filter (· == k)).map fun _ => faceNormal vs t

/-- the direction of the sum of some vectors; zero stays zero -/
def meanDirection (ns : List Vec3) : Vec3 :=
  let s := ns.foldl (fun a b => Vec3.mk (a.x +ᶠ b.x) (a.y +ᶠ b.y) (a.z +ᶠ b.z)) ⟨0, 0, 0⟩
  let len := sqrt (s.x *ᶠ s.x +ᶠ s.y *ᶠ s.y +ᶠ s.z *ᶠ s.z)
  if 0 <ᶠ len then ⟨s.x /ᶠ len, s.y /ᶠ len, s.z /ᶠ len⟩ else s

/-- the direction of a closed curve at point `i`: to the next point -/
def tangentAt (points : List RenderVertex2D) (i : Nat) : Vec3 :=
  match points[i]?, points[(i + 1) % points.length]? with
  | some p, some q => ⟨q.x -ᶠ p.x, q.y -ᶠ p.y, 0⟩
  | _, _ => ⟨0, 0, 0⟩

/-- the cross product with a vector `t` in the plane -/
def planarCross (t u : Vec3) : Vec3 := ⟨t.y *ᶠ u.z, t.x.neg *ᶠ u.z, t.x *ᶠ u.y -ᶠ t.y *ᶠ u.x⟩

/-- A frame moves along the curve: at every point a normal and a second normal, both perpendicular to
the direction of the curve; the first is perpendicular to the sum of the first two points, lifted to
the given height, every other to the second normal before. -/
def frameAt (points : List RenderVertex2D) (height : F32) : Nat → Vec3 × Vec3
  | 0 =>
    let t := tangentAt points 0
    let up : Vec3 := match points[0]?, points[1 % points.length]? with
      | some p, some q => ⟨q.x +ᶠ p.x, q.y +ᶠ p.y, height *ᶠ fTwo⟩
      | _, _ => ⟨0, 0, 0⟩
    let n := planarCross t up
    (n.normalize, (planarCross t n).normalize)
  | i + 1 =>
    let t := tangentAt points (i + 1)
    let n := Vec3.cross (frameAt points height i).2 t
    (n.normalize, (Vec3.cross t n).normalize)

/-- vertex `j` of the `S` vertices of the ring around point `i`: the normal, turned by `j / S` of a
full circle about the direction of the curve, scaled to half the thickness -/
def ringPlace (points : List RenderVertex2D) (height thickness : F32) (S i j : Nat) (p : RenderVertex2D) :
    F32 × F32 × F32 :=
  let a := ofNat j *ᶠ f360 *ᶠ (f32One /ᶠ ofNat S)
  let d := (getRotatedAxis a (tangentAt points i) (frameAt points height i).1).scale (thickness *ᶠ fHalf)
  (p.x +ᶠ d.x, p.y +ᶠ d.y, height +ᶠ d.z)

/-- the middle between the smallest and the largest value -/
def middle (l : List F32) : F32 := (l.foldl fmax fMin +ᶠ l.foldl fmin fMax) *ᶠ fHalf

/-- Turn a vector by the given angles (degrees) about the first, the second and the third axis, in this
order: a matrix of sines and cosines. Without any turn the vector stays as it is. -/
def turn (rot : F32 × F32 × F32) (v : F32 × F32 × F32) : F32 × F32 × F32 :=
  if (rot.1 ==ᶠ 0) && (rot.2.1 ==ᶠ 0) && (rot.2.2 ==ᶠ 0) then v
  else
    let rad (d : F32) := d *ᶠ fPi /ᶠ f180
    let (sx, cx) := (sin (rad rot.1), cos (rad rot.1))
    let (sy, cy) := (sin (rad rot.2.1), cos (rad rot.2.1))
    let (sz, cz) := (sin (rad rot.2.2), cos (rad rot.2.2))
    (cz *ᶠ cy *ᶠ v.1 +ᶠ (cz *ᶠ sy *ᶠ sx -ᶠ sz *ᶠ cx) *ᶠ v.2.1 +ᶠ (cz *ᶠ sy *ᶠ cx +ᶠ sz *ᶠ sx) *ᶠ v.2.2,
     sz *ᶠ cy *ᶠ v.1 +ᶠ (sz *ᶠ sy *ᶠ sx +ᶠ cz *ᶠ cx) *ᶠ v.2.1 +ᶠ (sz *ᶠ sy *ᶠ cx -ᶠ cz *ᶠ sx) *ᶠ v.2.2,
     sy.neg *ᶠ v.1 +ᶠ cy *ᶠ sx *ᶠ v.2.1 +ᶠ cy *ᶠ cx *ᶠ v.2.2)

end
end Vpin
