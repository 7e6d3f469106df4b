import Verif.Model.Matrix
/-
Geometry with exact numbers.
-/
namespace Vpin.Geometry

open Lean.Grind

variable {α : Type} [Field α]

/-- the operations of matrix.rs on exact numbers, with any functions for sine, cosine and the change from degrees -/
@[instance_reducible] def exactOps (sin cos radians : α → α) : Ops α where
  zero := 0
  one := 1
  add := (· + ·)
  sub := (· - ·)
  mul := (· * ·)
  div := (· / ·)
  neg := (- ·)
  sin := sin
  cos := cos
  radians := radians

/-- a point moved -/
def move (d p : V3 α) : V3 α := ⟨p.x + d.x, p.y + d.y, p.z + d.z⟩

/-- a point stretched along the axes -/
def stretch (s p : V3 α) : V3 α := ⟨s.x * p.x, s.y * p.y, s.z * p.z⟩

/-- a point turned about the x axis, from y to z, by an angle with cosine `c` and sine `s` -/
def turnX (c s : α) (p : V3 α) : V3 α := ⟨p.x, c * p.y - s * p.z, s * p.y + c * p.z⟩

/-- a point turned about the y axis, from z to x -/
def turnY (c s : α) (p : V3 α) : V3 α := ⟨c * p.x + s * p.z, p.y, c * p.z - s * p.x⟩

/-- a point turned about the z axis, from x to y -/
def turnZ (c s : α) (p : V3 α) : V3 α := ⟨c * p.x - s * p.y, s * p.x + c * p.y, p.z⟩

/-- the difference of two points -/
def sub (p q : V3 α) : V3 α := ⟨p.x - q.x, p.y - q.y, p.z - q.z⟩

/-- the scalar product -/
def dot (p q : V3 α) : α := p.x * q.x + p.y * q.y + p.z * q.z

/-- the turns of a primitive: about z, y and x, and again about z, y and x -/
def turns (sin cos radians : α → α) (t0 t1 t2 t6 t7 t8 : α) (p : V3 α) : V3 α :=
  let c a := cos (radians a)
  let s a := sin (radians a)
  turnX (c t6) (s t6) (turnY (c t7) (s t7) (turnZ (c t8) (s t8)
    (turnX (c t0) (s t0) (turnY (c t1) (s t1) (turnZ (c t2) (s t2) p)))))

end Vpin.Geometry
