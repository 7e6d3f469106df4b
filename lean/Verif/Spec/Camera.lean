import Mathlib.Analysis.SpecialFunctions.Trigonometric.Basic
import Verif.Model.Camera
/-
Cameras with real numbers.
-/
namespace Vpin.Views

/-- the operations of camera.rs on real numbers -/
@[instance_reducible] noncomputable def realCamera : CameraOps ℝ where
  zero := 0
  one := 1
  add := (· + ·)
  sub := (· - ·)
  mul := (· * ·)
  div := (· / ·)
  neg := (- ·)
  sin := Real.sin
  cos := Real.cos
  radians a := a * (Real.pi / 180)
  tan := Real.tan
  max := max
  greatest l := l.foldl max (l.headD 0)
  least l := l.foldl min (l.headD 0)
  half := 1 / 2
  two := 2
  ninety := 90
  hundred := 100
  aspect := 16 / 9
  nearer := 47 / 100
  metre := 53975 / 100000000
  hundredth := 1 / 100

/-- a vector turned by the rotation of a glTF node, which is a quaternion x, y, z, w -/
def turned (q : ℝ × ℝ × ℝ × ℝ) (v : V3 ℝ) : V3 ℝ :=
  let (x, y, z, w) := q
  ⟨(1 - 2 * (y * y + z * z)) * v.x + 2 * (x * y - z * w) * v.y + 2 * (x * z + y * w) * v.z,
   2 * (x * y + z * w) * v.x + (1 - 2 * (x * x + z * z)) * v.y + 2 * (y * z - x * w) * v.z,
   2 * (x * z - y * w) * v.x + 2 * (y * z + x * w) * v.y + (1 - 2 * (x * x + y * y)) * v.z⟩

/-- the axes of a glTF camera: it looks along its negative z axis, with x to the right and y up -/
def forward (c : ViewCamera ℝ) : V3 ℝ := turned c.rotation ⟨0, 0, -1⟩
def backward (c : ViewCamera ℝ) : V3 ℝ := turned c.rotation ⟨0, 0, 1⟩
def rightward (c : ViewCamera ℝ) : V3 ℝ := turned c.rotation ⟨1, 0, 0⟩
def upward (c : ViewCamera ℝ) : V3 ℝ := turned c.rotation ⟨0, 1, 0⟩

/-- the way straight up from the table in the exported scene -/
def skyward : V3 ℝ := ⟨0, 1, 0⟩

/-- sums and multiples of vectors -/
def plus (a b : V3 ℝ) : V3 ℝ := ⟨a.x + b.x, a.y + b.y, a.z + b.z⟩
def times (k : ℝ) (a : V3 ℝ) : V3 ℝ := ⟨k * a.x, k * a.y, k * a.z⟩
def scalar (a b : V3 ℝ) : ℝ := a.x * b.x + a.y * b.y + a.z * b.z

/-- a metre in units of the table: a VPU is 0.53975 mm -/
noncomputable def vpu : ℝ := 53975 / 100000000

/-- the centre of the table in the exported scene, in metres: x to the right, z to the player, y up -/
noncomputable def centre (b : TableBounds ℝ) : V3 ℝ :=
  ⟨vpu * ((b.left + b.right) / 2), 0, vpu * ((b.top + b.bottom) / 2)⟩

/-- the corners of the box from the table to the glass -/
def BoxCorner (b : TableBounds ℝ) (p : V3 ℝ) : Prop :=
  (p.x = b.left ∨ p.x = b.right) ∧ (p.y = b.top ∨ p.y = b.bottom) ∧ (p.z = 0 ∨ p.z = b.glass_height)

/-- a point below an eye that looks down the z axis is in its view, of slopes `sx` and `sy` -/
def InView (sx sy : ℝ) (eye p : V3 ℝ) : Prop :=
  |p.x - eye.x| ≤ sx * (eye.z - p.z) ∧ |p.y - eye.y| ≤ sy * (eye.z - p.z)

/-- a point tilted about the x axis by an angle -/
noncomputable def tilted (a : ℝ) (p : V3 ℝ) : V3 ℝ :=
  ⟨p.x, Real.cos a * p.y - Real.sin a * p.z, Real.sin a * p.y + Real.cos a * p.z⟩

/-- from this distance an eye can see all corners of the tilted box, in a picture of 16 to 9 and this angle (in
degrees) from top to bottom -/
def SeesBox (b : TableBounds ℝ) (angle fov distance : ℝ) : Prop :=
  ∃ x y, ∀ p, BoxCorner b p →
    InView (16 / 9 * Real.tan (fov / 2 * (Real.pi / 180))) (Real.tan (fov / 2 * (Real.pi / 180))) ⟨x, y, distance⟩ (tilted angle p)

end Vpin.Views
