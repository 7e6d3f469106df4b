import Verif.Model.TableMesh
/-
The form in which Model/MeshData holds the tables of /repo: a vertex is one number of eight 32-bit digits, x first, and
a triangle one number of three 16-bit digits.
-/
namespace Vpin

/-- the vertex of a number (used in /repo/src/vpx/mesh/bumpers/mod.rs:82-126) -/
def unpackVertex (n : Nat) : Vertex :=
  let w k : F32 := UInt32.ofNat (n / 2 ^ (32 * k))
  ⟨w 7, w 6, w 5, w 4, w 3, w 2, w 1, w 0⟩

/-- the triangle of a number (used in /repo/src/vpx/mesh/bumpers/mod.rs:82-126) -/
def unpackTri (n : Nat) : Tri := (n / 2 ^ 32, n / 2 ^ 16 % 2 ^ 16, n % 2 ^ 16)

/-- the table of two lists of numbers (used in /repo/src/vpx/mesh/bumpers/mod.rs:82-126) -/
def unpackTable (vertices tris : List Nat) : MeshTable := ⟨vertices.map unpackVertex, tris.map unpackTri⟩

end Vpin
