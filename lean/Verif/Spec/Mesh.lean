import Verif.Model.Mesh
/-
What a mesh in a file looks like.
-/
namespace Vpin

/-- the indices of a face are below `n` -/
def Face.Below (n : Nat) (f : Face) : Prop :=
  0 ≤ f.i0 ∧ f.i0 < n ∧ 0 ≤ f.i1 ∧ f.i1 < n ∧ 0 ≤ f.i2 ∧ f.i2 < n

/-- the bytes of a vertex -/
def Vertex.bytes (v : Vertex) : Bytes :=
  le32 v.x ++ le32 v.y ++ le32 v.z ++ le32 v.nx ++ le32 v.ny ++ le32 v.nz ++ le32 v.tu ++ le32 v.tv

end Vpin
