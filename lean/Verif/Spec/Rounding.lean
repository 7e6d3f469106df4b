import Mathlib.Analysis.SpecialFunctions.Trigonometric.Basic
import Verif.Spec.Placement
import Verif.Model.TableMesh
/-
What a single precision number stands for, and how far a calculated point may be from the exact one.
-/
namespace Vpin
namespace Rounding

/-- the number a finite bit pattern stands for -/
noncomputable def value (x : F32) : ℝ := (if x.isNeg then -1 else 1) * ((x.mag : ℝ) / 2 ^ 149)

/-- The calculated number `x` is the exact number `r` rounded: no finite number of single precision is closer to `r`. So it
differs from `r` by at most one part in 2^24, or half of the least number. -/
def Rounds (x : F32) (r : ℝ) : Prop :=
  x.isFinite = true ∧ |value x - r| ≤ |r| / 2 ^ 24 + 1 / 2 ^ 150 ∧
    ∀ y : F32, y.isFinite = true → |value x - r| ≤ |value y - r|

/-- the point of real numbers -/
noncomputable def point (p : V3 F32) : V3 ℝ := ⟨value p.x, value p.y, value p.z⟩

/-- all coordinates are numbers, not infinite or NaN -/
def Finite (p : V3 F32) : Prop := p.x.isFinite = true ∧ p.y.isFinite = true ∧ p.z.isFinite = true

/-- a finite number of at most the size `m` -/
def AtMost (m : ℝ) (x : F32) : Prop := x.isFinite = true ∧ |value x| ≤ m

/-- a point with finite coordinates of at most the size `m` -/
def InBox (m : ℝ) (p : V3 F32) : Prop := AtMost m p.x ∧ AtMost m p.y ∧ AtMost m p.z

/-- every coordinate of a calculated point is finite and differs from the exact one by at most `e` -/
def Within (e : ℝ) (p : V3 F32) (q : V3 ℝ) : Prop :=
  Finite p ∧ |value p.x - q.x| ≤ e ∧ |value p.y - q.y| ≤ e ∧ |value p.z - q.z| ≤ e

/-- a sine and a cosine as a library computes them: the error is at most two units in the last place of a number
next to one -/
structure CloseTrig (sin cos : F32 → F32) : Prop where
  sin : ∀ x : F32, x.isFinite = true →
    (sin x).isFinite = true ∧ |value (sin x) - Real.sin (value x)| ≤ 1 / 2 ^ 23
  cos : ∀ x : F32, x.isFinite = true →
    (cos x).isFinite = true ∧ |value (cos x) - Real.cos (value x)| ≤ 1 / 2 ^ 23

/-- a point turned about the z axis, from x to y, by an angle in degrees -/
noncomputable def turnedBy (degrees : ℝ) (p : V3 ℝ) : V3 ℝ :=
  Geometry.turnZ (Real.cos (degrees * (Real.pi / 180))) (Real.sin (degrees * (Real.pi / 180))) p

/-- a point turned about the x axis, from y to z, by an angle in degrees -/
noncomputable def tiltedBy (degrees : ℝ) (p : V3 ℝ) : V3 ℝ :=
  Geometry.turnX (Real.cos (degrees * (Real.pi / 180))) (Real.sin (degrees * (Real.pi / 180))) p

/-- how a trigger is turned: the wires B and C are tilted first -/
noncomputable def triggerTurn (shape : TriggerShape) (rotation : ℝ) (p : V3 ℝ) : V3 ℝ :=
  turnedBy rotation (match shape with
    | .WireB => tiltedBy (-23) p
    | .WireC => tiltedBy 140 p
    | _ => p)

/-- the length of a vector -/
noncomputable def lengthOf (q : V3 ℝ) : ℝ := Real.sqrt (q.x * q.x + q.y * q.y + q.z * q.z)

/-- the vector of length one with the same direction -/
noncomputable def unitOf (q : V3 ℝ) : V3 ℝ := ⟨q.x / lengthOf q, q.y / lengthOf q, q.z / lengthOf q⟩

/-- the length of a vector is about one: its square is between a half and two -/
def AboutOne (q : V3 ℝ) : Prop :=
  1 / 2 ≤ q.x * q.x + q.y * q.y + q.z * q.z ∧ q.x * q.x + q.y * q.y + q.z * q.z ≤ 2

/-- every vertex of a table is a point with coordinates of at most the size `m` -/
def TableIn (m : ℝ) (t : MeshTable) : Prop := ∀ v ∈ t.vertices, InBox m v.pos

/-- every normal of a table is a vector of about the length one with coordinates of at most one -/
def UnitNormals (t : MeshTable) : Prop := ∀ v ∈ t.vertices, InBox 1 v.normal ∧ AboutOne (point v.normal)

/-- Every vertex of a mesh is at most `e` away, in every direction, from where `place` puts the vertex of the table with
the same number. There are as many vertices. -/
def Follows (e : ℝ) (mesh : RawMesh) (t : MeshTable) (place : V3 ℝ → V3 ℝ) : Prop :=
  List.Forall₂ (fun w v => Within e w.pos (place (point v.pos))) mesh.vertices t.vertices

/-- the same for the normals of the vertices -/
def FollowsNormals (e : ℝ) (mesh : RawMesh) (t : MeshTable) (turn : V3 ℝ → V3 ℝ) : Prop :=
  List.Forall₂ (fun w v => Within e w.normal (turn (point v.normal))) mesh.vertices t.vertices

end Rounding
end Vpin
