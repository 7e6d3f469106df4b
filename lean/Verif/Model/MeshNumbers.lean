import Verif.Model.Matrix
/-
The calculations of the mesh generators, for any numbers: the same sequence of operations as the code. With the numbers of
the code they are the calculations of the models of the generators (`C92_same`), with real numbers they show what the
generators compute apart from rounding.
-/
namespace Vpin

/-- the operations and constants of the mesh generators (used in /repo/src/vpx/mesh/walls.rs:26-104) -/
class Numbers (α : Type) extends Ops α where
  sqrt : α → α
  abs : α → α
  /-- `x == 0.0` -/
  isZero : α → Bool
  /-- `x < y` -/
  less : α → α → Bool
  /-- `n as f32` -/
  ofNat : Nat → α
  half : α
  two : α
  pi : α
  /-- `180.0` -/
  straight : α
  /-- `360.0` -/
  full : α
  /-- `1e-4` -/
  small : α
  /-- `1e-12` -/
  tiny : α

/-- the operations and constants of the code (used in /repo/src/vpx/mesh/walls.rs:529-574) -/
instance [Arith] : Numbers F32 where
  sqrt := Arith.sqrt
  abs := F32.abs
  isZero x := Arith.eq x 0
  less := Arith.lt
  ofNat := Arith.ofNat
  half := fHalf
  two := fTwo
  pi := fPi
  straight := f180
  full := f360
  small := f1em4
  tiny := f1em12

namespace Any
open Ops Numbers

/-- two coordinates (used in /repo/src/vpx/math/vec.rs:11-14) -/
structure V2 (α : Type) where
  x : α
  y : α

variable {α : Type} [Numbers α]

local infixl:65 " +' " => Ops.add
local infixl:65 " -' " => Ops.sub
local infixl:70 " *' " => Ops.mul
local infixl:70 " /' " => Ops.div

/-- `Vec2::normalize`, /repo/src/vpx/math/vec.rs:53-67 -/
def unit2 (a : V2 α) : V2 α :=
  let len := sqrt (a.x *' a.x +' a.y *' a.y)
  if isZero len then ⟨zero, zero⟩ else ⟨a.x /' len, a.y /' len⟩

/-- `Vec3::normalize`, /repo/src/vpx/math/vec.rs:118-137 -/
def unit3 (a : V3 α) : V3 α :=
  let len := sqrt (a.x *' a.x +' a.y *' a.y +' a.z *' a.z)
  if isZero len then ⟨zero, zero, zero⟩ else ⟨a.x /' len, a.y /' len, a.z /' len⟩

/-- `Vec3::cross`, /repo/src/vpx/math/vec.rs:139-145 -/
def cross (a b : V3 α) : V3 α :=
  ⟨a.y *' b.z -' a.z *' b.y, a.z *' b.x -' a.x *' b.z, a.x *' b.y -' a.y *' b.x⟩

/-- the cross product with a vector in the plane, as in /repo/src/vpx/mesh/rubbers.rs:172-184 -/
def crossPlane (t u : V3 α) : V3 α :=
  ⟨t.y *' u.z, neg t.x *' u.z, t.x *' u.y -' t.y *' u.x⟩

/-- `get_rotated_axis`, /repo/src/vpx/math/vec.rs:181-209 -/
def rotatedAxis (angleDegrees : α) (axis temp : V3 α) : V3 α :=
  let u := unit3 axis
  let angle := angleDegrees *' pi /' straight
  let s := sin angle
  let c := cos angle
  let omc := one -' c
  let r0 : V3 α := ⟨u.x *' u.x +' c *' (one -' u.x *' u.x),
    u.x *' u.y *' omc -' s *' u.z, u.x *' u.z *' omc +' s *' u.y⟩
  let r1 : V3 α := ⟨u.x *' u.y *' omc +' s *' u.z,
    u.y *' u.y +' c *' (one -' u.y *' u.y), u.y *' u.z *' omc -' s *' u.x⟩
  let r2 : V3 α := ⟨u.x *' u.z *' omc -' s *' u.y, u.y *' u.z *' omc +' s *' u.x,
    u.z *' u.z +' c *' (one -' u.z *' u.z)⟩
  ⟨temp.x *' r0.x +' temp.y *' r0.y +' temp.z *' r0.z,
   temp.x *' r1.x +' temp.y *' r1.y +' temp.z *' r1.z,
   temp.x *' r2.x +' temp.y *' r2.y +' temp.z *' r2.z⟩

/-- The normal and the second normal of ring `i` of a tube whose direction at ring `i` is `t i`,
/repo/src/vpx/mesh/rubbers.rs:159-192 and /repo/src/vpx/mesh/ramps.rs:414-441. The first ones come from a given vector;
`first` is the product used for them. -/
def frame (first : V3 α → V3 α → V3 α) (t : Nat → V3 α) (up : V3 α) : Nat → V3 α × V3 α
  | 0 =>
    let n := first (t 0) up
    (unit3 n, unit3 (first (t 0) n))
  | i + 1 =>
    let n := cross (frame first t up i).2 (t (i + 1))
    (unit3 n, unit3 (cross (t (i + 1)) n))

/-- the way from the middle of a tube to vertex `j` of the `S` vertices of ring `i`,
/repo/src/vpx/mesh/rubbers.rs:196-207 and /repo/src/vpx/mesh/ramps.rs:443-449 -/
def spoke (first : V3 α → V3 α → V3 α) (t : Nat → V3 α) (up : V3 α) (thickness : α) (S i j : Nat) : V3 α :=
  let d := rotatedAxis (ofNat j *' full *' (one /' ofNat S)) (t i) (frame first t up i).1
  let s := thickness *' half
  ⟨d.x *' s, d.y *' s, d.z *' s⟩

/-- the vector across the step from `p` to `q`, /repo/src/vpx/mesh/ramps.rs:56-66 -/
def across (p q : V2 α) : V2 α := unit2 ⟨p.y -' q.y, q.x -' p.x⟩

/-- the vector across a ramp at a point `q` between `p` and `r`, /repo/src/vpx/mesh/ramps.rs:62-94 -/
def acrossCorner (p q r : V2 α) : V2 α :=
  let n := across p q
  let m := across q r
  if less (abs (n.x -' m.x)) small && less (abs (n.y -' m.y)) small then n
  else
    let a := p.y -' q.y
    let b := q.x -' p.x
    let c := a *' (n.x -' p.x) +' b *' (n.y -' p.y)
    let d := r.y -' q.y
    let e := q.x -' r.x
    let f := d *' (m.x -' r.x) +' e *' (m.y -' r.y)
    let det := a *' e -' b *' d
    let inv := if isZero det then zero else one /' det
    ⟨q.x -' (b *' f -' e *' c) *' inv, q.y -' (c *' d -' a *' f) *' inv⟩

/-- The right and the left side of a ramp of the given width at a point, /repo/src/vpx/mesh/ramps.rs:122-128 -/
def sides (q across : V2 α) (width : α) : V2 α × V2 α :=
  let w := width *' half
  (⟨q.x +' across.x *' w, q.y +' across.y *' w⟩, ⟨q.x -' across.x *' w, q.y -' across.y *' w⟩)

/-- the distance of a point from the line through `p` and `q`, and the foot of the perpendicular,
/repo/src/vpx/mesh/mod.rs:918-957 -/
def foot (p q : V2 α) (x y : α) : Option (α × V2 α) :=
  let a := p.y -' q.y
  let b := q.x -' p.x
  let c := neg (a *' p.x +' b *' p.y)
  if less (sqrt (a *' a +' b *' b)) tiny then none
  else
    let d := abs (a *' x +' b *' y +' c) /' sqrt (a *' a +' b *' b)
    let f := neg (neg b *' x +' a *' y)
    let det := a *' a -' b *' neg b
    let s := if isZero det then zero else one /' det
    some (d, ⟨(b *' f -' a *' c) *' s, (c *' neg b -' a *' f) *' s⟩)

/-- the rotation of a rubber, /repo/src/vpx/mesh/rubbers.rs:293-352 -/
def turned (rot v : V3 α) : V3 α :=
  if isZero rot.x && isZero rot.y && isZero rot.z then v
  else
    let rad (d : α) := d *' pi /' straight
    let (sx, cx) := (sin (rad rot.x), cos (rad rot.x))
    let (sy, cy) := (sin (rad rot.y), cos (rad rot.y))
    let (sz, cz) := (sin (rad rot.z), cos (rad rot.z))
    ⟨cz *' cy *' v.x +' (cz *' sy *' sx -' sz *' cx) *' v.y +' (cz *' sy *' cx +' sz *' sx) *' v.z,
     sz *' cy *' v.x +' (sz *' sy *' sx +' cz *' cx) *' v.y +' (sz *' sy *' cx -' cz *' sx) *' v.z,
     neg sy *' v.x +' cy *' sx *' v.y +' cy *' cx *' v.z⟩

/-- the normal of a face, /repo/src/vpx/mesh/mod.rs:113-133 -/
def faceNormal (a b c : V3 α) : V3 α :=
  unit3 (cross ⟨b.x -' a.x, b.y -' a.y, b.z -' a.z⟩ ⟨c.x -' a.x, c.y -' a.y, c.z -' a.z⟩)

/-- the sum of the normals of the faces of a vertex, /repo/src/vpx/mesh/mod.rs:136-144 -/
def total (ns : List (V3 α)) : V3 α :=
  ns.foldl (fun a b => V3.mk (a.x +' b.x) (a.y +' b.y) (a.z +' b.z)) ⟨zero, zero, zero⟩

/-- its direction, /repo/src/vpx/mesh/mod.rs:148-155 -/
def direction (s : V3 α) : V3 α :=
  let len := sqrt (s.x *' s.x +' s.y *' s.y +' s.z *' s.z)
  if less zero len then ⟨s.x /' len, s.y /' len, s.z /' len⟩ else s

/-- the normal of a vertex from the normals of its faces, /repo/src/vpx/mesh/mod.rs:136-155 -/
def mean (ns : List (V3 α)) : V3 α := direction (total ns)

/-- the normal of a side of a wall as it is kept, /repo/src/vpx/mesh/walls.rs:283-297; its `y` is turned when it is used -/
def sideNormal (p q : V2 α) : V2 α :=
  let d := sqrt ((p.x -' q.x) *' (p.x -' q.x) +' (p.y -' q.y) *' (p.y -' q.y))
  if isZero d then ⟨zero, zero⟩ else ⟨(p.y -' q.y) /' d, (p.x -' q.x) /' d⟩

/-- the normal of a vertex of a wall, /repo/src/vpx/mesh/walls.rs:320-338 and 374-387: of its own side, or of both sides at a smooth
point -/
def wallNormal (smooth : Bool) (own left right : V2 α) : V3 α :=
  let n := unit2 (if smooth then ⟨left.x +' right.x, left.y +' right.y⟩ else own)
  ⟨n.x, neg n.y, zero⟩

/-- corner `i` of a prism with `n` sides, /repo/src/vpx/mesh/builtin_primitive.rs:147-170 -/
def prismCorner (n i : Nat) : V2 α :=
  let a := two *' pi /' ofNat n *' ofNat i +' pi /' ofNat n
  let radius := neg half /' cos (pi /' ofNat n)
  ⟨sin a *' radius, cos a *' radius⟩

end Any
end Vpin
