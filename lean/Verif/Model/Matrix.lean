import Verif.Model.Arith
/-
/repo/src/vpx/math/matrix.rs: 4x4 matrices, for any type of numbers.

The code computes with `f32`. The definitions here take the operations as a class `Ops` on any type of numbers, so that
the same definitions can be read with `f32` bit patterns (`Ops F32`, the model of the code, no laws) and with exact
numbers (a field), where the equations of geometry hold.
-/
namespace Vpin

/-- the operations of matrix.rs -/
class Ops (α : Type) where
  zero : α
  one : α
  add : α → α → α
  sub : α → α → α
  mul : α → α → α
  div : α → α → α
  neg : α → α
  /-- `sin` -/
  sin : α → α
  /-- `cos` -/
  cos : α → α
  /-- `f32::to_radians` -/
  radians : α → α

/-- `PI / 180.0` as `f32`, the factor of `f32::to_radians` (used in /repo/src/vpx/math/matrix.rs:116-121) -/
def fRadsPerDeg : F32 := 0x3c8efa35

/-- the operations of the code (used in /repo/src/vpx/math/matrix.rs:23-46) -/
instance [Arith] : Ops F32 where
  zero := 0
  one := f32One
  add := Arith.add
  sub := Arith.sub
  mul := Arith.mul
  div := Arith.div
  neg := F32.neg
  sin := Arith.sin
  cos := Arith.cos
  radians x := Arith.mul x fRadsPerDeg

/-- `Vertex3D`, /repo/src/vpx/math/matrix.rs:16-21 -/
structure V3 (α : Type) where
  x : α
  y : α
  z : α
  deriving DecidableEq, Repr

/-- a row of `m: [[f32; 4]; 4]`, /repo/src/vpx/math/matrix.rs:66 -/
structure Row4 (α : Type) where
  c0 : α
  c1 : α
  c2 : α
  c3 : α
  deriving DecidableEq, Repr

/-- `Matrix3D`, /repo/src/vpx/math/matrix.rs:62-66 -/
structure Matrix3D (α : Type) where
  r0 : Row4 α
  r1 : Row4 α
  r2 : Row4 α
  r3 : Row4 α
  deriving DecidableEq, Repr

section
variable {α : Type} [Ops α]
open Ops

/-- `Matrix3D::rotate_x`, /repo/src/vpx/math/matrix.rs:113-118 -/
def Matrix3D.rotateX (a : α) : Matrix3D α :=
  ⟨⟨one, zero, zero, zero⟩, ⟨zero, cos a, sin a, zero⟩, ⟨zero, neg (sin a), cos a, zero⟩, ⟨zero, zero, zero, one⟩⟩

/-- `Matrix3D::rotate_y`, /repo/src/vpx/math/matrix.rs:123-128 -/
def Matrix3D.rotateY (a : α) : Matrix3D α :=
  ⟨⟨cos a, zero, neg (sin a), zero⟩, ⟨zero, one, zero, zero⟩, ⟨sin a, zero, cos a, zero⟩, ⟨zero, zero, zero, one⟩⟩

/-- `Matrix3D::rotate_z`, /repo/src/vpx/math/matrix.rs:133-138 -/
def Matrix3D.rotateZ (a : α) : Matrix3D α :=
  ⟨⟨cos a, sin a, zero, zero⟩, ⟨neg (sin a), cos a, zero, zero⟩, ⟨zero, zero, one, zero⟩, ⟨zero, zero, zero, one⟩⟩

/-- `Matrix3D::scale`, /repo/src/vpx/math/matrix.rs:148-152 -/
def Matrix3D.scale (x y z : α) : Matrix3D α :=
  ⟨⟨x, zero, zero, zero⟩, ⟨zero, y, zero, zero⟩, ⟨zero, zero, z, zero⟩, ⟨zero, zero, zero, one⟩⟩

/-- `Matrix3D::translate`, /repo/src/vpx/math/matrix.rs:157-161 -/
def Matrix3D.translate (x y z : α) : Matrix3D α :=
  ⟨⟨one, zero, zero, zero⟩, ⟨zero, one, zero, zero⟩, ⟨zero, zero, one, zero⟩, ⟨x, y, z, one⟩⟩

/-- `Matrix3D::transform_vertex`, /repo/src/vpx/math/matrix.rs:166-174 -/
def Matrix3D.transformVertex (m : Matrix3D α) (v : V3 α) : V3 α :=
  let xp := add (add (add (mul m.r0.c0 v.x) (mul m.r1.c0 v.y)) (mul m.r2.c0 v.z)) m.r3.c0
  let yp := add (add (add (mul m.r0.c1 v.x) (mul m.r1.c1 v.y)) (mul m.r2.c1 v.z)) m.r3.c1
  let zp := add (add (add (mul m.r0.c2 v.x) (mul m.r1.c2 v.y)) (mul m.r2.c2 v.z)) m.r3.c2
  let wp := add (add (add (mul m.r0.c3 v.x) (mul m.r1.c3 v.y)) (mul m.r2.c3 v.z)) m.r3.c3
  let inv := div one wp
  ⟨mul xp inv, mul yp inv, mul zp inv⟩

/-- `Matrix3D::transform_normal`, /repo/src/vpx/math/matrix.rs:189-194; `transform_vector`, 179-184, is the same -/
def Matrix3D.transformNormal (m : Matrix3D α) (n : V3 α) : V3 α :=
  ⟨add (add (mul m.r0.c0 n.x) (mul m.r1.c0 n.y)) (mul m.r2.c0 n.z),
   add (add (mul m.r0.c1 n.x) (mul m.r1.c1 n.y)) (mul m.r2.c1 n.z),
   add (add (mul m.r0.c2 n.x) (mul m.r1.c2 n.y)) (mul m.r2.c2 n.z)⟩

/-- a cell of a product, /repo/src/vpx/math/matrix.rs:206-209: `col` is a column of the second matrix -/
def mulCell (row : Row4 α) (a b c d : α) : α :=
  add (add (add (mul a row.c0) (mul b row.c1)) (mul c row.c2)) (mul d row.c3)

/-- a row of a product, /repo/src/vpx/math/matrix.rs:204-211 -/
def mulRow (row : Row4 α) (m : Matrix3D α) : Row4 α :=
  ⟨mulCell row m.r0.c0 m.r1.c0 m.r2.c0 m.r3.c0, mulCell row m.r0.c1 m.r1.c1 m.r2.c1 m.r3.c1,
   mulCell row m.r0.c2 m.r1.c2 m.r2.c2 m.r3.c2, mulCell row m.r0.c3 m.r1.c3 m.r2.c3 m.r3.c3⟩

/-- `impl Mul for Matrix3D`, /repo/src/vpx/math/matrix.rs:199-214 -/
def Matrix3D.mult (a b : Matrix3D α) : Matrix3D α := ⟨mulRow a.r0 b, mulRow a.r1 b, mulRow a.r2 b, mulRow a.r3 b⟩

/-- `primitive_world_matrix`, /repo/src/vpx/export/obj_export.rs:557-571, of the fields `position`, `size` and
`rot_and_tra` -/
def primitiveWorldMatrix (pos size : V3 α) (t0 t1 t2 t3 t4 t5 t6 t7 t8 : α) : Matrix3D α :=
  let rt := (((((((Matrix3D.translate t3 t4 t5).mult (.rotateZ (radians t2))).mult (.rotateY (radians t1))).mult
    (.rotateX (radians t0))).mult (.rotateZ (radians t8))).mult (.rotateY (radians t7))).mult (.rotateX (radians t6)))
  ((Matrix3D.scale size.x size.y size.z).mult rt).mult (.translate pos.x pos.y pos.z)

end
end Vpin
