import Verif.Model.Arith
import Verif.Model.Mesh
import Verif.Spec.Surface
/-
Specification vocabulary for prisms, independent of the model.
-/
namespace Vpin
open Arith

/-- the side after side `i` -/
def nextSide (n i : Nat) : Nat := (i + 1) % n

/-- The vertices of a prism over a polygon with `n` corners have these numbers: the middle of the top, the
corners of the top, the middle of the bottom, the corners of the bottom; and for the sides the corners of
the top and of the bottom once more. -/
structure PrismNumbers (n : Nat) where
  topMiddle : Nat := 0
  top (i : Nat) : Nat := 1 + i
  bottomMiddle : Nat := n + 1
  bottom (i : Nat) : Nat := n + 2 + i
  sideTop (i : Nat) : Nat := 2 * n + 2 + i
  sideBottom (i : Nat) : Nat := 3 * n + 2 + i

/-- the numbering of the mesh -/
def prism (n : Nat) : PrismNumbers n := {}

/-- the faces over side `i`: one of the top, one of the bottom, two of the side -/
def prismSide (n i : Nat) : List Tri :=
  let k := nextSide n i
  let p := prism n
  [(p.topMiddle, p.top k, p.top i), (p.bottomMiddle, p.bottom i, p.bottom k),
    (p.sideTop k, p.sideBottom i, p.sideTop i), (p.sideTop k, p.sideBottom k, p.sideBottom i)]

/-- the corners of the sides are the corners of the top and of the bottom -/
def prismWeld (n k : Nat) : Nat :=
  if 2 * n + 2 ≤ k ∧ k < 3 * n + 2 then k - (2 * n + 2) + 1
  else if 3 * n + 2 ≤ k ∧ k < 4 * n + 2 then k - (3 * n + 2) + (n + 2)
  else k

/-- a face seen from the other side -/
def Tri.flip (t : Tri) : Tri := (t.1, t.2.2, t.2.1)

section
variable [Arith]

/-- the direction of corner `i` -/
def prismAngle (n i : Nat) : F32 := fTwo *ᶠ fPi /ᶠ ofNat n *ᶠ ofNat i +ᶠ fPi /ᶠ ofNat n

/-- corner `i` of the polygon: the middles of its edges are at distance 1/2 -/
def prismCorner (n i : Nat) : F32 × F32 :=
  let radius := fHalf.neg /ᶠ cos (fPi /ᶠ ofNat n)
  (sin (prismAngle n i) *ᶠ radius, cos (prismAngle n i) *ᶠ radius)

/-- the least and the greatest of some numbers -/
def leastOf (l : List F32) : F32 := l.foldl (fun m x => if x <ᶠ m then x else m) fInf
def greatestOf (l : List F32) : F32 := l.foldl (fun m x => if m <ᶠ x then x else m) fNegInf

/-- Texture coordinates of the corners of the top: the bounding box of the polygon is laid over the upper left
quarter of the picture. -/
def prismTexture (n i : Nat) : F32 × F32 :=
  let xs := (List.range n).map fun i => (prismCorner n i).1
  let ys := (List.range n).map fun i => (prismCorner n i).2
  (((prismCorner n i).1 -ᶠ leastOf xs) *ᶠ (fHalf /ᶠ (greatestOf xs -ᶠ leastOf xs)),
    ((prismCorner n i).2 -ᶠ leastOf ys) *ᶠ (fHalf /ᶠ (greatestOf ys -ᶠ leastOf ys)))

/-- The vertices of a prism of height 1: top and bottom face up and down; the normals of the sides have
the direction of the angle (which is inwards, see `C69_normals_counterexample`). The bottom uses the
upper right quarter of the picture, the sides its lower half. -/
structure PrismVertices (n : Nat) (vs : List Vertex) : Prop where
  count : vs.length = 4 * n + 2
  topMiddle : vs[(prism n).topMiddle]? = some ⟨0, 0, fHalf, 0, 0, f32One, fQuarter, fQuarter⟩
  bottomMiddle : vs[(prism n).bottomMiddle]? = some ⟨0, 0, fHalf.neg, 0, 0, f32One.neg, f3Quarter, fQuarter⟩
  top : ∀ i < n, vs[(prism n).top i]? = some ⟨(prismCorner n i).1, (prismCorner n i).2, fHalf,
    0, 0, f32One, (prismTexture n i).1, (prismTexture n i).2⟩
  bottom : ∀ i < n, vs[(prism n).bottom i]? = some ⟨(prismCorner n i).1, (prismCorner n i).2, fHalf.neg,
    0, 0, f32One.neg, (prismTexture n i).1 +ᶠ fHalf, (prismTexture n i).2⟩
  sideTop : ∀ i < n, vs[(prism n).sideTop i]? = some ⟨(prismCorner n i).1, (prismCorner n i).2, fHalf,
    sin (prismAngle n i), cos (prismAngle n i), 0, ofNat i *ᶠ (f32One /ᶠ ofNat n), fHalf⟩
  sideBottom : ∀ i < n, vs[(prism n).sideBottom i]? = some ⟨(prismCorner n i).1, (prismCorner n i).2,
    fHalf.neg, sin (prismAngle n i), cos (prismAngle n i), 0, ofNat i *ᶠ (f32One /ᶠ ofNat n), f32One⟩

end
end Vpin
