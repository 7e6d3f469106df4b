import Verif.Spec.Placement
import Verif.Model.ObjExport
/-
C73: where the vertices of a primitive are put, computed with exact numbers.
-/
namespace Vpin
open Lean.Grind Geometry

section
variable {α : Type} [Field α] {sin cos radians : α → α}

/-! the operations on exact numbers -/
theorem exact_add (x y : α) : @Ops.add α (exactOps sin cos radians) x y = x + y := rfl
theorem exact_mul (x y : α) : @Ops.mul α (exactOps sin cos radians) x y = x * y := rfl
theorem exact_div (x y : α) : @Ops.div α (exactOps sin cos radians) x y = x / y := rfl
theorem exact_neg (x : α) : @Ops.neg α (exactOps sin cos radians) x = -x := rfl
theorem exact_zero : @Ops.zero α (exactOps sin cos radians) = 0 := rfl
theorem exact_one : @Ops.one α (exactOps sin cos radians) = 1 := rfl
theorem exact_sin (x : α) : @Ops.sin α (exactOps sin cos radians) x = sin x := rfl
theorem exact_cos (x : α) : @Ops.cos α (exactOps sin cos radians) x = cos x := rfl

/-- the last column of a matrix that moves points -/
def Matrix3D.Affine (m : Matrix3D α) : Prop := m.r0.c3 = 0 ∧ m.r1.c3 = 0 ∧ m.r2.c3 = 0 ∧ m.r3.c3 = 1

theorem mult_affine {a b : Matrix3D α} (ha : a.Affine) (hb : b.Affine) :
    letI := exactOps sin cos radians
    (a.mult b).Affine := by
  obtain ⟨a0, a1, a2, a3⟩ := ha
  obtain ⟨b0, b1, b2, b3⟩ := hb
  refine ⟨?_, ?_, ?_, ?_⟩ <;> simp only [Matrix3D.mult, mulRow, mulCell, exact_add, exact_mul, exact_div, exact_neg, exact_zero, exact_one] <;> grind

/-- first the one, then the other -/
theorem transform_mult {a b : Matrix3D α} (ha : a.Affine) (hb : b.Affine) (p : V3 α) :
    letI := exactOps sin cos radians
    (a.mult b).transformVertex p = b.transformVertex (a.transformVertex p) := by
  obtain ⟨a0, a1, a2, a3⟩ := ha
  obtain ⟨b0, b1, b2, b3⟩ := hb
  simp only [Matrix3D.mult, mulRow, mulCell, Matrix3D.transformVertex, exact_add, exact_mul, exact_div, exact_neg, exact_zero, exact_one, exact_sin, exact_cos, a0, a1, a2, a3, b0, b1, b2, b3,
    V3.mk.injEq]
  refine ⟨?_, ?_, ?_⟩ <;> grind

theorem transformNormal_mult {a b : Matrix3D α} (ha : a.Affine) (p : V3 α) :
    letI := exactOps sin cos radians
    (a.mult b).transformNormal p = b.transformNormal (a.transformNormal p) := by
  obtain ⟨a0, a1, a2, a3⟩ := ha
  simp only [Matrix3D.mult, mulRow, mulCell, Matrix3D.transformNormal, exact_add, exact_mul, exact_div, exact_neg, exact_zero, exact_one, exact_sin, exact_cos, a0, a1, a2, V3.mk.injEq]
  refine ⟨?_, ?_, ?_⟩ <;> grind

theorem affine_scale (x y z : α) : letI := exactOps sin cos radians; (Matrix3D.scale x y z).Affine :=
  ⟨rfl, rfl, rfl, rfl⟩
theorem affine_translate (x y z : α) : letI := exactOps sin cos radians; (Matrix3D.translate x y z).Affine :=
  ⟨rfl, rfl, rfl, rfl⟩
theorem affine_rotateX (a : α) : letI := exactOps sin cos radians; (Matrix3D.rotateX a).Affine := ⟨rfl, rfl, rfl, rfl⟩
theorem affine_rotateY (a : α) : letI := exactOps sin cos radians; (Matrix3D.rotateY a).Affine := ⟨rfl, rfl, rfl, rfl⟩
theorem affine_rotateZ (a : α) : letI := exactOps sin cos radians; (Matrix3D.rotateZ a).Affine := ⟨rfl, rfl, rfl, rfl⟩

theorem transform_scale (s p : V3 α) : letI := exactOps sin cos radians;
    (Matrix3D.scale s.x s.y s.z).transformVertex p = stretch s p ∧
      (Matrix3D.scale s.x s.y s.z).transformNormal p = stretch s p := by
  simp only [Matrix3D.scale, Matrix3D.transformVertex, Matrix3D.transformNormal, exact_add, exact_mul, exact_div, exact_neg, exact_zero, exact_one, exact_sin, exact_cos, stretch, V3.mk.injEq]
  refine ⟨⟨?_, ?_, ?_⟩, ?_, ?_, ?_⟩ <;> grind

theorem transform_translate (d p : V3 α) : letI := exactOps sin cos radians;
    (Matrix3D.translate d.x d.y d.z).transformVertex p = move d p ∧
      (Matrix3D.translate d.x d.y d.z).transformNormal p = p := by
  obtain ⟨x, y, z⟩ := p
  simp only [Matrix3D.translate, Matrix3D.transformVertex, Matrix3D.transformNormal, exact_add, exact_mul, exact_div, exact_neg, exact_zero, exact_one, exact_sin, exact_cos, move, V3.mk.injEq]
  refine ⟨⟨?_, ?_, ?_⟩, ?_, ?_, ?_⟩ <;> grind

theorem transform_rotateX (a : α) (p : V3 α) : letI := exactOps sin cos radians;
    (Matrix3D.rotateX a).transformVertex p = turnX (cos a) (sin a) p ∧
      (Matrix3D.rotateX a).transformNormal p = turnX (cos a) (sin a) p := by
  simp only [Matrix3D.rotateX, Matrix3D.transformVertex, Matrix3D.transformNormal, exact_add, exact_mul, exact_div, exact_neg, exact_zero, exact_one, exact_sin, exact_cos, turnX, V3.mk.injEq]
  refine ⟨⟨?_, ?_, ?_⟩, ?_, ?_, ?_⟩ <;> grind

theorem transform_rotateY (a : α) (p : V3 α) : letI := exactOps sin cos radians;
    (Matrix3D.rotateY a).transformVertex p = turnY (cos a) (sin a) p ∧
      (Matrix3D.rotateY a).transformNormal p = turnY (cos a) (sin a) p := by
  simp only [Matrix3D.rotateY, Matrix3D.transformVertex, Matrix3D.transformNormal, exact_add, exact_mul, exact_div, exact_neg, exact_zero, exact_one, exact_sin, exact_cos, turnY, V3.mk.injEq]
  refine ⟨⟨?_, ?_, ?_⟩, ?_, ?_, ?_⟩ <;> grind

theorem transform_rotateZ (a : α) (p : V3 α) : letI := exactOps sin cos radians;
    (Matrix3D.rotateZ a).transformVertex p = turnZ (cos a) (sin a) p ∧
      (Matrix3D.rotateZ a).transformNormal p = turnZ (cos a) (sin a) p := by
  simp only [Matrix3D.rotateZ, Matrix3D.transformVertex, Matrix3D.transformNormal, exact_add, exact_mul, exact_div, exact_neg, exact_zero, exact_one, exact_sin, exact_cos, turnZ, V3.mk.injEq]
  refine ⟨⟨?_, ?_, ?_⟩, ?_, ?_, ?_⟩ <;> grind

/-- **C73**: with exact numbers a vertex of a primitive is stretched by the size, then moved by entries 3 to 5 of
`rot_and_tra`, then turned about z, y and x by entries 2, 1 and 0, and again by entries 8, 7 and 6, and at last moved to
the position. A normal is stretched and turned in the same way, but not moved. -/
theorem C73_placement (pos size : V3 α) (t0 t1 t2 t3 t4 t5 t6 t7 t8 : α) (p : V3 α) :
    letI := exactOps sin cos radians
    (primitiveWorldMatrix pos size t0 t1 t2 t3 t4 t5 t6 t7 t8).transformVertex p =
        move pos (turns sin cos radians t0 t1 t2 t6 t7 t8 (move ⟨t3, t4, t5⟩ (stretch size p))) ∧
      (primitiveWorldMatrix pos size t0 t1 t2 t3 t4 t5 t6 t7 t8).transformNormal p =
        turns sin cos radians t0 t1 t2 t6 t7 t8 (stretch size p) := by
  letI := exactOps sin cos radians
  have a1 := mult_affine (sin := sin) (cos := cos) (radians := radians) (affine_translate (sin := sin) (cos := cos)
    (radians := radians) t3 t4 t5) (affine_rotateZ (sin := sin) (cos := cos) (radians := radians) (radians t2))
  have a2 := mult_affine (sin := sin) (cos := cos) (radians := radians) a1
    (affine_rotateY (sin := sin) (cos := cos) (radians := radians) (radians t1))
  have a3 := mult_affine (sin := sin) (cos := cos) (radians := radians) a2
    (affine_rotateX (sin := sin) (cos := cos) (radians := radians) (radians t0))
  have a4 := mult_affine (sin := sin) (cos := cos) (radians := radians) a3
    (affine_rotateZ (sin := sin) (cos := cos) (radians := radians) (radians t8))
  have a5 := mult_affine (sin := sin) (cos := cos) (radians := radians) a4
    (affine_rotateY (sin := sin) (cos := cos) (radians := radians) (radians t7))
  have a6 := mult_affine (sin := sin) (cos := cos) (radians := radians) a5
    (affine_rotateX (sin := sin) (cos := cos) (radians := radians) (radians t6))
  have s0 := affine_scale (sin := sin) (cos := cos) (radians := radians) size.x size.y size.z
  have a7 := mult_affine (sin := sin) (cos := cos) (radians := radians) s0 a6
  constructor
  · unfold primitiveWorldMatrix
    refine (transform_mult a7 (affine_translate pos.x pos.y pos.z) p).trans ?_
    rw [(transform_translate pos _).1]
    congr 1
    refine (transform_mult s0 a6 p).trans ?_
    rw [(transform_scale size p).1]
    refine (transform_mult a5 (affine_rotateX _) _).trans ?_
    rw [(transform_rotateX _ _).1]
    refine congrArg _ ((transform_mult a4 (affine_rotateY _) _).trans ?_)
    rw [(transform_rotateY _ _).1]
    refine congrArg _ ((transform_mult a3 (affine_rotateZ _) _).trans ?_)
    rw [(transform_rotateZ _ _).1]
    refine congrArg _ ((transform_mult a2 (affine_rotateX _) _).trans ?_)
    rw [(transform_rotateX _ _).1]
    refine congrArg _ ((transform_mult a1 (affine_rotateY _) _).trans ?_)
    rw [(transform_rotateY _ _).1]
    refine congrArg _ ((transform_mult (affine_translate t3 t4 t5) (affine_rotateZ _) _).trans ?_)
    rw [(transform_rotateZ _ _).1]
    exact congrArg _ (transform_translate ⟨t3, t4, t5⟩ _).1
  · unfold primitiveWorldMatrix
    refine (transformNormal_mult a7 p).trans ?_
    rw [(transform_translate pos _).2]
    refine (transformNormal_mult s0 p).trans ?_
    rw [(transform_scale size p).2]
    refine (transformNormal_mult a5 _).trans ?_
    rw [(transform_rotateX _ _).2]
    refine congrArg _ ((transformNormal_mult a4 _).trans ?_)
    rw [(transform_rotateY _ _).2]
    refine congrArg _ ((transformNormal_mult a3 _).trans ?_)
    rw [(transform_rotateZ _ _).2]
    refine congrArg _ ((transformNormal_mult a2 _).trans ?_)
    rw [(transform_rotateX _ _).2]
    refine congrArg _ ((transformNormal_mult a1 _).trans ?_)
    rw [(transform_rotateY _ _).2]
    refine congrArg _ ((transformNormal_mult (affine_translate t3 t4 t5) _).trans ?_)
    rw [(transform_rotateZ _ _).2]
    exact congrArg _ (transform_translate ⟨t3, t4, t5⟩ _).2

theorem turnX_sub (c s : α) (p q : V3 α) : sub (turnX c s p) (turnX c s q) = turnX c s (sub p q) := by
  simp only [sub, turnX, V3.mk.injEq]
  refine ⟨?_, ?_, ?_⟩ <;> grind
theorem turnY_sub (c s : α) (p q : V3 α) : sub (turnY c s p) (turnY c s q) = turnY c s (sub p q) := by
  simp only [sub, turnY, V3.mk.injEq]
  refine ⟨?_, ?_, ?_⟩ <;> grind
theorem turnZ_sub (c s : α) (p q : V3 α) : sub (turnZ c s p) (turnZ c s q) = turnZ c s (sub p q) := by
  simp only [sub, turnZ, V3.mk.injEq]
  refine ⟨?_, ?_, ?_⟩ <;> grind
theorem move_sub (d p q : V3 α) : sub (move d p) (move d q) = sub p q := by
  simp only [sub, move, V3.mk.injEq]
  refine ⟨?_, ?_, ?_⟩ <;> grind
theorem stretch_sub (d p q : V3 α) : sub (stretch d p) (stretch d q) = stretch d (sub p q) := by
  simp only [sub, stretch, V3.mk.injEq]
  refine ⟨?_, ?_, ?_⟩ <;> grind

theorem turnX_dot {c s : α} (h : c * c + s * s = 1) (p q : V3 α) : dot (turnX c s p) (turnX c s q) = dot p q := by
  simp only [dot, turnX]; grind
theorem turnY_dot {c s : α} (h : c * c + s * s = 1) (p q : V3 α) : dot (turnY c s p) (turnY c s q) = dot p q := by
  simp only [dot, turnY]; grind
theorem turnZ_dot {c s : α} (h : c * c + s * s = 1) (p q : V3 α) : dot (turnZ c s p) (turnZ c s q) = dot p q := by
  simp only [dot, turnZ]; grind

theorem turns_sub (t0 t1 t2 t6 t7 t8 : α) (p q : V3 α) :
    sub (turns sin cos radians t0 t1 t2 t6 t7 t8 p) (turns sin cos radians t0 t1 t2 t6 t7 t8 q) =
      turns sin cos radians t0 t1 t2 t6 t7 t8 (sub p q) := by
  simp only [turns, turnX_sub, turnY_sub, turnZ_sub]

theorem turns_dot (h : ∀ a, cos a * cos a + sin a * sin a = 1) (t0 t1 t2 t6 t7 t8 : α) (p q : V3 α) :
    dot (turns sin cos radians t0 t1 t2 t6 t7 t8 p) (turns sin cos radians t0 t1 t2 t6 t7 t8 q) = dot p q := by
  simp only [turns]
  rw [turnX_dot (h _), turnY_dot (h _), turnZ_dot (h _), turnX_dot (h _), turnY_dot (h _), turnZ_dot (h _)]

/-- **C73**: a primitive with the same size in all directions keeps its shape: all distances grow by that factor, and
its normals stay at right angles to its faces. -/
theorem C73_shape (h : ∀ a, cos a * cos a + sin a * sin a = 1) (pos : V3 α) (k t0 t1 t2 t3 t4 t5 t6 t7 t8 : α)
    (p q n : V3 α) :
    letI := exactOps sin cos radians
    let m := primitiveWorldMatrix pos ⟨k, k, k⟩ t0 t1 t2 t3 t4 t5 t6 t7 t8
    let d := sub (m.transformVertex p) (m.transformVertex q)
    dot d d = k * k * dot (sub p q) (sub p q) ∧ dot d (m.transformNormal n) = k * k * dot (sub p q) n := by
  intro m d
  have hd : d = turns sin cos radians t0 t1 t2 t6 t7 t8 (stretch ⟨k, k, k⟩ (sub p q)) := by
    show sub _ _ = _
    rw [(C73_placement pos ⟨k, k, k⟩ t0 t1 t2 t3 t4 t5 t6 t7 t8 p).1,
      (C73_placement pos ⟨k, k, k⟩ t0 t1 t2 t3 t4 t5 t6 t7 t8 q).1, move_sub, turns_sub, move_sub, stretch_sub]
  have hn : @Matrix3D.transformNormal α (exactOps sin cos radians) m n =
      turns sin cos radians t0 t1 t2 t6 t7 t8 (stretch ⟨k, k, k⟩ n) :=
    (C73_placement pos ⟨k, k, k⟩ t0 t1 t2 t3 t4 t5 t6 t7 t8 n).2
  refine ⟨?_, ?_⟩
  · rw [hd, turns_dot h]
    simp only [dot, stretch]
    grind
  · rw [hd, hn, turns_dot h]
    simp only [dot, stretch]
    grind

end

/-! ### Concrete cases -/

/-- turns by multiples of a quarter, with rational numbers -/
def quarterSin (a : Rat) : Rat := if a = 1 then 1 else 0
def quarterCos (a : Rat) : Rat := if a = 1 then 0 else 1

theorem quarter_unit : ∀ a, quarterCos a * quarterCos a + quarterSin a * quarterSin a = 1 := by
  intro a
  unfold quarterCos quarterSin
  split <;> grind

/-- the condition of `C73_shape` is met, and the formula gives: a point of a primitive of size 2, moved by 1 along x,
turned from x to y, and put at (10, 20, 30) -/
example : (∀ a, quarterCos a * quarterCos a + quarterSin a * quarterSin a = 1) ∧
    letI := exactOps quarterSin quarterCos (fun a => a / 90)
    (primitiveWorldMatrix ⟨10, 20, 30⟩ ⟨2, 2, 2⟩ 0 0 90 1 0 0 0 0 0).transformVertex (⟨3, 0, 1⟩ : V3 Rat) =
      ⟨10, 27, 32⟩ :=
  ⟨quarter_unit, by decide +kernel⟩

/-- If the sizes differ, normals do not stay at right angles to the faces: they are stretched like the faces, where
the opposite is needed. -/
theorem C73_normals_counterexample :
    letI := exactOps (α := Rat) quarterSin quarterCos id
    let m := primitiveWorldMatrix ⟨0, 0, 0⟩ ⟨1, 2, 1⟩ 0 0 0 0 0 0 0 0 0
    let p : V3 Rat := ⟨1, 1, 0⟩
    let q : V3 Rat := ⟨0, 0, 0⟩
    let n : V3 Rat := ⟨1, -1, 0⟩
    dot (sub p q) n = 0 ∧ dot (sub (m.transformVertex p) (m.transformVertex q)) (m.transformNormal n) = -3 := by
  decide +kernel

/-- **C73**: in the code the vertices of a primitive are placed this way, from its position, its size and its nine
rotations and translations. A normal without NaN is turned and brought to length one, unless its length is not positive;
texture coordinates stay. -/
theorem C73_primitive [Arith] (p : Primitive) (v : Vertex) :
    let m : Matrix3D F32 := primitiveWorldMatrix ⟨p.position.x, p.position.y, p.position.z⟩
      ⟨p.size.x, p.size.y, p.size.z⟩ p.rot_and_tra0 p.rot_and_tra1 p.rot_and_tra2 p.rot_and_tra3 p.rot_and_tra4
      p.rot_and_tra5 p.rot_and_tra6 p.rot_and_tra7 p.rot_and_tra8
    let w := primitiveVertex p.worldMatrix v
    let n := m.transformNormal ⟨v.nx, v.ny, v.nz⟩
    let len := Vec3.length ⟨n.x, n.y, n.z⟩
    m.transformVertex ⟨v.x, v.y, v.z⟩ = ⟨w.x, w.y, w.z⟩ ∧ (w.tu, w.tv) = (v.tu, v.tv) ∧
      (v.nx.isNaN = false → v.ny.isNaN = false → v.nz.isNaN = false → Arith.lt 0 len = true →
        (w.nx, w.ny, w.nz) = (Arith.div n.x len, Arith.div n.y len, Arith.div n.z len)) ∧
      (v.nx.isNaN = true ∨ v.ny.isNaN = true ∨ v.nz.isNaN = true ∨ Arith.lt 0 len = false →
        (w.nx, w.ny, w.nz) = (v.nx, v.ny, v.nz)) := by
  intro m w n len
  have hw : w = if !v.nx.isNaN && !v.ny.isNaN && !v.nz.isNaN then
      (if Arith.lt 0 len = true then
        ⟨(m.transformVertex ⟨v.x, v.y, v.z⟩).x, (m.transformVertex ⟨v.x, v.y, v.z⟩).y,
          (m.transformVertex ⟨v.x, v.y, v.z⟩).z, Arith.div n.x len, Arith.div n.y len, Arith.div n.z len, v.tu, v.tv⟩
      else ⟨(m.transformVertex ⟨v.x, v.y, v.z⟩).x, (m.transformVertex ⟨v.x, v.y, v.z⟩).y,
          (m.transformVertex ⟨v.x, v.y, v.z⟩).z, v.nx, v.ny, v.nz, v.tu, v.tv⟩)
      else ⟨(m.transformVertex ⟨v.x, v.y, v.z⟩).x, (m.transformVertex ⟨v.x, v.y, v.z⟩).y,
          (m.transformVertex ⟨v.x, v.y, v.z⟩).z, v.nx, v.ny, v.nz, v.tu, v.tv⟩ := rfl
  clear_value w n len
  subst hw
  cases v.nx.isNaN <;> cases v.ny.isNaN <;> cases v.nz.isNaN <;> cases Arith.lt 0 len <;> simp

end Vpin
