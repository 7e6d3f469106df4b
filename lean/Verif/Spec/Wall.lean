import Verif.Model.Polygon
import Verif.Model.Items.DragPoint
import Verif.Model.Mesh
/-
Specification vocabulary for wall meshes, independent of the model of the generator.
-/
namespace Vpin
open Arith

/-- where a vertex is -/
def Vertex.place (v : Vertex) : F32 × F32 × F32 := (v.x, v.y, v.z)

/-- rename the corners of a triangle -/
def Tri.map (f : Nat → Nat) (t : Tri) : Tri := (f t.1, f t.2.1, f t.2.2)

/-- `label` gives the same name only to vertices at the same place -/
def Welds (label : Nat → Nat) (vertices : List Vertex) : Prop :=
  ∀ (i j : Nat) (v w : Vertex), vertices[i]? = some v → vertices[j]? = some w → label i = label j →
    v.place = w.place

/-- all vertices at the same place get the same name: the number of the first one -/
def weldAll (vertices : List Vertex) (i : Nat) : Nat :=
  (vertices.map Vertex.place).findIdx fun p => (vertices[i]?.map Vertex.place) == some p

/-- The points that stand for a drag point with its own texture coordinate: pairs of the number of the
control point among all control points, and the number of the point. -/
def texMarks (points : List RenderVertex2D) (dps : List DragPoint) : List (Nat × Nat) :=
  (List.range points.length).filterMap fun i =>
    let k := (points.take i).countP (·.control_point)
    if (points[i]?.map (·.control_point)) = some true ∧
        (dps[k]?.map (·.has_auto_texture)) = some false then some (k, i) else none

section
variable [Arith]

/-- distance between point `l` and the next one; the points form a closed loop -/
def distNext (points : List RenderVertex2D) (l : Nat) : F32 :=
  match points[l % points.length]?, points[(l + 1) % points.length]? with
  | some p, some q => sqrt ((q.x -ᶠ p.x) *ᶠ (q.x -ᶠ p.x) +ᶠ (q.y -ᶠ p.y) *ᶠ (q.y -ᶠ p.y))
  | _, _ => 0

/-- the length of the way from point `start` over the next `k` edges -/
def walked (points : List RenderVertex2D) (start : Nat) : Nat → F32
  | 0 => 0
  | k + 1 => walked points start k +ᶠ distNext points (start + k)

/-- the coordinate at the `j`-th of the `len` edges from point `start`, if it grows from `st` at the
start to `et` at the end in proportion to the length of the way -/
def proportional (points : List RenderVertex2D) (start len : Nat) (st et : F32) (j : Nat) : F32 :=
  st +ᶠ (if 0 <ᶠ walked points start len then walked points start j /ᶠ walked points start len else 0)
    *ᶠ (et -ᶠ st)

/-- the normal of the side from `p` to `q`, in the plane: perpendicular to the side -/
def flatNormal (p q : RenderVertex2D) : Vec2 :=
  let d := sqrt ((p.x -ᶠ q.x) *ᶠ (p.x -ᶠ q.x) +ᶠ (p.y -ᶠ q.y) *ᶠ (p.y -ᶠ q.y))
  if d ==ᶠ 0 then ⟨0, 0⟩ else ⟨(p.y -ᶠ q.y) /ᶠ d, (p.x -ᶠ q.x) /ᶠ d⟩

/-- the normal at a point between two sides with the given normals, for the second or first of them:
at a smooth point the mean direction of both, else that of the side itself -/
def pointNormal (smooth : Bool) (own left right : Vec2) : Vec2 :=
  (if smooth then Vec2.add left right else own).normalize

/-- The four vertices of a side of a wall over the edge from `p` to `q` (in the outline `o`, `p`, `q`,
`r`): bottom and top at `p`, top and bottom at `q`, with the normals of `p` and of `q`; the texture, if
any, runs from `tex.1` at `p` to `tex.2` at `q`, and from 1 at the bottom to 0 at the top. -/
structure SideOver (bottom top : F32) (o p q r : RenderVertex2D) (tex : Option (F32 × F32))
    (v0 v1 v2 v3 : Vertex) : Prop where
  place0 : v0.place = (p.x, p.y, bottom)
  place1 : v1.place = (p.x, p.y, top)
  place2 : v2.place = (q.x, q.y, top)
  place3 : v3.place = (q.x, q.y, bottom)
  normal_p : ∀ v ∈ [v0, v1], ∃ n, n = pointNormal p.smooth (flatNormal p q) (flatNormal o p) (flatNormal p q) ∧
    v.nx = n.x ∧ v.ny = n.y.neg ∧ v.nz = 0
  normal_q : ∀ v ∈ [v2, v3], ∃ n, n = pointNormal q.smooth (flatNormal p q) (flatNormal p q) (flatNormal q r) ∧
    v.nx = n.x ∧ v.ny = n.y.neg ∧ v.nz = 0
  tex : ∀ t, tex = some t → v0.tu = t.1 ∧ v1.tu = t.1 ∧ v2.tu = t.2 ∧ v3.tu = t.2 ∧
    v0.tv = f32One ∧ v1.tv = 0 ∧ v2.tv = 0 ∧ v3.tv = f32One

end
end Vpin
