import Verif.Model.Wasm
import Verif.Spec.Obj
/-
What the arrays of a mesh mean for users of the package for web browsers.
-/
namespace Vpin

/-- The arrays describe these vertices and triangles: three coordinates, two texture coordinates and three numbers of
the direction for each vertex in turn, and three indices for each triangle. -/
structure Describes (vs : List Vertex) (ts : List (UInt32 × UInt32 × UInt32)) (positions texCoords normals : List F32)
    (indices : List UInt32) : Prop where
  positions : positions = (vs.map fun v => [v.x, v.y, v.z]).flatten
  texCoords : texCoords = (vs.map fun v => [v.tu, v.tv]).flatten
  normals : normals = (vs.map fun v => [v.nx, v.ny, v.nz]).flatten
  indices : indices = (ts.map fun t => [t.1, t.2.1, t.2.2]).flatten

/-- the triangle has its corners among that many vertices -/
def CornersBelow (n : Nat) (t : UInt32 × UInt32 × UInt32) : Prop :=
  t.1.toNat < n ∧ t.2.1.toNat < n ∧ t.2.2.toNat < n

/-- The numbers of the vertex survive their text: with the conversion those with the other sign for z, and the text of
the flipped V coordinate is exact. -/
def Vertex.Survives (T : FloatText) (convert : Bool) (v : Vertex) : Prop :=
  if convert then v.TextExact T ∧ (flippedV T v.tv).2 = true
  else ∀ x ∈ [v.x, v.y, v.z, v.nx, v.ny, v.nz, v.tu, v.tv], Vpin.TextExact T x

/-- a line that is no comment -/
def ObjLine.Matters : ObjLine → Bool
  | .comment _ => false
  | _ => true

end Vpin

namespace Vpin

/-- the vertex with that number, from the arrays -/
def WasmMesh.vertex (m : WasmMesh) (i : Nat) : Option Vertex := do
  let x ← m.positions[3 * i]?
  let y ← m.positions[3 * i + 1]?
  let z ← m.positions[3 * i + 2]?
  let nx ← m.normals[3 * i]?
  let ny ← m.normals[3 * i + 1]?
  let nz ← m.normals[3 * i + 2]?
  let tu ← m.texCoords[2 * i]?
  let tv ← m.texCoords[2 * i + 1]?
  some ⟨x, y, z, nx, ny, nz, tu, tv⟩

/-- a vertex with this position, texture coordinates and direction; with the conversion z has the other sign and V is
flipped -/
def objVertex (convert : Bool) (p : Option (F32 × F32 × F32)) (t : Option (F32 × F64)) (n : Option (F32 × F32 × F32)) :
    Option Vertex := do
  let p ← p
  let t ← t
  let n ← n
  some (if convert then ⟨p.1, p.2.1, p.2.2.neg, n.1, n.2.1, n.2.2.neg, t.1, t.2.oneMinus.toF32⟩
    else ⟨p.1, p.2.1, p.2.2, n.1, n.2.1, n.2.2, t.1, t.2.toF32⟩)

/-- the vertex that a corner names in the file -/
def namedVertex (T : FloatText) (ls : List ObjLine) (convert : Bool) (c : Option Corner) : Option Vertex :=
  objVertex convert (c.bind fun c => (objPositions T ls)[c.1]?.join) (c.bind fun c => (objTexcoords T ls)[c.2.1]?.join)
    (c.bind fun c => (objNormals T ls)[c.2.2]?.join)

/-- the corners of the triangles of all polygons of the file, in order -/
def fanCorners (ls : List ObjLine) (convert : Bool) : List (Option Corner) :=
  ((objPolygons ls).flatMap fun f => fanTriangles (faceCorners convert f)).flatMap fun t => [t.1, t.2.1, t.2.2]

end Vpin
