import Verif.Model.Arith
import Verif.Model.Mesh
import Verif.Spec.Surface
/-
/repo/src/vpx/mesh/builtin_primitive.rs: the mesh of a primitive without a mesh of its own.
-/
namespace Vpin
open Arith

/-- `verts[k] = v`, panics outside of the list (used in /repo/src/vpx/mesh/builtin_primitive.rs:117) -/
def putAt (vs : List Vertex) (k : Nat) (v : Vertex) : Res (List Vertex) :=
  if k < vs.length then .ok (vs.set k v) else .error .panic

/-- `verts[k]` (used in /repo/src/vpx/mesh/builtin_primitive.rs:117) -/
def vertexAt (vs : List Vertex) (k : Nat) : Res Vertex :=
  match vs[k]? with
  | some v => .ok v
  | none => .error .panic

/-- the faces of side `i`, /repo/src/vpx/mesh/builtin_primitive.rs:245-279 -/
def builtinFaces (n : Nat) (inside : Bool) (i : Nat) : List Tri :=
  let tmp := if i = n - 1 then 1 else i + 2
  let tmp2 := tmp + 1
  let a := 2 * n + tmp2
  let b := 3 * n + 2 + i
  let c := 2 * n + 2 + i
  let d := 3 * n + tmp2
  [(0, tmp, i + 1), (n + 1, n + 2 + i, n + tmp2), (a, b, c), (a, d, b)] ++
    if inside then [(0, i + 1, tmp), (n + 1, n + tmp2, n + 2 + i), (a, c, b), (a, b, d)] else []

/-- `VpxFace::new`, /repo/src/vpx/obj.rs:725-730 -/
def Tri.face (t : Tri) : Face := ⟨t.1, t.2.1, t.2.2⟩

section
variable [Arith]

/-- bounding box: `min_x min_y max_x max_y` (used in /repo/src/vpx/mesh/builtin_primitive.rs:141) -/
structure Box where
  minX : F32
  minY : F32
  maxX : F32
  maxY : F32

/-- first pass, side `i`, /repo/src/vpx/mesh/builtin_primitive.rs:147-212 -/
def builtinPlace (n : Nat) (s : List Vertex × Box) (i : Nat) : Res (List Vertex × Box) := do
  let outerRadius := fHalf.neg /ᶠ cos (fPi /ᶠ ofNat n)
  let angle := fTwo *ᶠ fPi /ᶠ ofNat n *ᶠ ofNat i +ᶠ fPi /ᶠ ofNat n
  let sx := sin angle *ᶠ outerRadius
  let cy := cos angle *ᶠ outerRadius
  let vs ← putAt s.1 (i + 1) ⟨sx, cy, fHalf, 0, 0, f32One, 0, 0⟩
  let vs ← putAt vs (i + 1 + n + 1) ⟨sx, cy, fHalf.neg, 0, 0, f32One.neg, 0, 0⟩
  let vs ← putAt vs (2 * n + 2 + i) ⟨sx, cy, fHalf, sin angle, cos angle, 0, 0, 0⟩
  let vs ← putAt vs (3 * n + 2 + i) ⟨sx, cy, fHalf.neg, sin angle, cos angle, 0, 0, 0⟩
  pure (vs, ⟨if sx <ᶠ s.2.minX then sx else s.2.minX, if cy <ᶠ s.2.minY then cy else s.2.minY,
    if s.2.maxX <ᶠ sx then sx else s.2.maxX, if s.2.maxY <ᶠ cy then cy else s.2.maxY⟩)

/-- second pass, side `i`, /repo/src/vpx/mesh/builtin_primitive.rs:218-232 -/
def builtinTexture (n : Nat) (box : Box) (vs : List Vertex) (i : Nat) : Res (List Vertex) := do
  let invX := fHalf /ᶠ (box.maxX -ᶠ box.minX)
  let invY := fHalf /ᶠ (box.maxY -ᶠ box.minY)
  let invS := f32One /ᶠ ofNat n
  let v ← vertexAt vs (i + 1)
  let tu := (v.x -ᶠ box.minX) *ᶠ invX
  let tv := (v.y -ᶠ box.minY) *ᶠ invY
  let vs ← putAt vs (i + 1) { v with tu := tu, tv := tv }
  let v ← vertexAt vs (i + 1 + n + 1)
  let vs ← putAt vs (i + 1 + n + 1) { v with tu := tu +ᶠ fHalf, tv := tv }
  let sideTu := ofNat i *ᶠ invS
  let v ← vertexAt vs (2 * n + 2 + i)
  let vs ← putAt vs (2 * n + 2 + i) { v with tu := sideTu, tv := fHalf }
  let v ← vertexAt vs (3 * n + 2 + i)
  putAt vs (3 * n + 2 + i) { v with tu := sideTu, tv := f32One }

/-- `build_builtin_primitive_mesh`, /repo/src/vpx/mesh/builtin_primitive.rs:87-283 -/
def buildBuiltinPrimitiveMesh (sides : UInt32) (inside : Bool) : Res (Option (List Vertex × List Tri)) := do
  if sides < 3 then pure none
  else do
    let n := sides.toNat
    let zero : Vertex := ⟨0, 0, 0, 0, 0, 0, 0, 0⟩
    let vs ← putAt (List.replicate (4 * n + 2) zero) 0 ⟨0, 0, fHalf, 0, 0, f32One, fQuarter, fQuarter⟩
    let vs ← putAt vs (n + 1) ⟨0, 0, fHalf.neg, 0, 0, f32One.neg, f3Quarter, fQuarter⟩
    let (vs, box) ← (List.range n).foldlM (builtinPlace n) (vs, ⟨fInf, fInf, fNegInf, fNegInf⟩)
    let vs ← (List.range n).foldlM (builtinTexture n box) vs
    pure (some (vs, (List.range n).flatMap (builtinFaces n inside)))

/-- `effective_primitive_mesh`, /repo/src/vpx/mesh/builtin_primitive.rs:54-81 (warnings are left out) -/
def effectivePrimitiveMesh (Z : Zlib) (p : Primitive) : Res (Option Mesh) := do
  if p.use_3d_mesh then p.readMesh Z
  else do
    match ← buildBuiltinPrimitiveMesh p.sides p.draw_textures_inside with
    | some (vs, ts) => pure (some ⟨vs.map fun v => ⟨List.replicate 32 0, v⟩, ts.map Tri.face⟩)
    | none => pure none

end
end Vpin
