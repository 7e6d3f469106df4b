import Verif.Spec.Placement
import Verif.Model.PlungerMesh
/-
Words for the shape of a plunger.
-/
namespace Vpin.Scene

open Vpin

section
variable [Arith]
open Arith

/-- a ring of a surface of revolution: its place along the axis, its radius, its texture coordinate, and for a flat
surface the direction it faces -/
structure RingSpec where
  y : F32
  radius : F32
  tv : F32
  facing : Option (V3 F32) := none

/-- point `j` of 16 on a ring around the axis through `centerZ` -/
def RingSpec.point (r : RingSpec) (centerZ : F32) (j : Nat) : V3 F32 :=
  lathePoint r.y centerZ r.radius (ofNat j /ᶠ ofNat 16 *ᶠ fTwo *ᶠ fPi)

/-- the normal at a point: the direction the ring faces, or away from the axis (with length one; if the point is on the
axis, along x) -/
def RingSpec.normal (r : RingSpec) (centerZ : F32) (p : V3 F32) : V3 F32 :=
  r.facing.getD
    (let nz := p.z -ᶠ centerZ
     let len := sqrt (p.x *ᶠ p.x +ᶠ nz *ᶠ nz)
     if (0 : F32) <ᶠ len then radialNormal len centerZ p else ⟨f32One, 0, 0⟩)

/-- the 16 vertices from number `first` on are those of the ring -/
def IsRing (m : RawMesh) (centerZ : F32) (first : Nat) (r : RingSpec) : Prop :=
  ∀ j, j < 16 → ∃ w, m.vertices[first + j]? = some w ∧ ⟨w.x, w.y, w.z⟩ = r.point centerZ j ∧
    ⟨w.nx, w.ny, w.nz⟩ = r.normal centerZ (r.point centerZ j) ∧ w.tv = r.tv ∧
    w.tu = (let u := 0x3f028f5c /- 0.51 -/ +ᶠ ofNat j *ᶠ (f32One /ᶠ ofNat 16)
      if f32One <ᶠ u then u -ᶠ f32One else u)

omit [Arith] in
/-- the 32 triangles from number `firstFace` on join the ring of vertices from `first` on with the next 16: two for each
quadrangle of neighbours, the last one with the first -/
def IsBand (m : RawMesh) (firstFace first : Nat) : Prop :=
  ∀ j, j < 16 →
    m.faces[firstFace + 2 * j]? = some ⟨first + j, first + 16 + j, first + (j + 1) % 16⟩ ∧
    m.faces[firstFace + 2 * j + 1]? = some ⟨first + (j + 1) % 16, first + 16 + j, first + 16 + (j + 1) % 16⟩

/-- strip `i` of the mesh joins the two rings -/
def IsStrip (m : RawMesh) (centerZ : F32) (i : Nat) (a b : RingSpec) : Prop :=
  IsRing m centerZ (32 * i) a ∧ IsRing m centerZ (32 * i + 16) b ∧ IsBand m (32 * i) (32 * i)

/-- the mesh begins with the surface through the rings: each ring joined with the next -/
def Surface (m : RawMesh) (centerZ : F32) (rings : List RingSpec) : Prop :=
  ∀ (i : Nat) a b, rings[i]? = some a → rings[i + 1]? = some b → IsStrip m centerZ i a b

/-- the mean of the 16 points of a ring -/
def RingSpec.middle (r : RingSpec) (centerZ : F32) : V3 F32 :=
  let sum := ((List.range 16).map (r.point centerZ)).foldl
    (fun acc p => (⟨acc.x +ᶠ p.x, acc.y +ᶠ p.y, acc.z +ᶠ p.z⟩ : V3 F32)) ⟨0, 0, 0⟩
  ⟨sum.x /ᶠ ofNat 16, sum.y /ᶠ ofNat 16, sum.z /ᶠ ofNat 16⟩

/-- the vertices from number `first` on are a disc on the ring: its middle (the mean of the ring), and the 16 points of
the ring, all facing `normal`; the triangles from `firstFace` on are those of a fan -/
def IsDisc (m : RawMesh) (centerZ : F32) (firstFace first : Nat) (r : RingSpec) (normal : V3 F32) (flip : Bool) : Prop :=
  (∃ w, m.vertices[first]? = some w ∧ ⟨w.x, w.y, w.z⟩ = r.middle centerZ ∧ ⟨w.nx, w.ny, w.nz⟩ = normal ∧
    w.tu = fHalf ∧ w.tv = r.tv) ∧
  (∀ j, j < 16 → ∃ w, m.vertices[first + 1 + j]? = some w ∧ ⟨w.x, w.y, w.z⟩ = r.point centerZ j ∧
    ⟨w.nx, w.ny, w.nz⟩ = normal ∧ w.tu = fHalf +ᶠ fHalf *ᶠ Ops.cos (fTwo *ᶠ fPi *ᶠ ofNat j /ᶠ ofNat 16) ∧
    w.tv = r.tv) ∧
  ∀ j, j < 16 → m.faces[firstFace + j]? = some
    (if flip then ⟨first, first + 1 + (j + 1) % 16, first + 1 + j⟩ else ⟨first, first + 1 + j, first + 1 + (j + 1) % 16⟩)

end

/-- the height of point `i` of the wire of a spring: a point is as far above the one before as the closer spacing of the
end says, and from point `nEnd` on as the wider one -/
def springHeight {α : Type} [Ops α] (start dyEnd dyMain : α) (nEnd : Nat) (main : Bool) : Nat → α
  | 0 => start
  | i + 1 => Ops.add (springHeight start dyEnd dyMain nEnd main i) (if nEnd ≤ i ∧ main = true then dyMain else dyEnd)

/-- a word of the text of a tip: it has a character, and none that is white or a semicolon -/
def IsWord (w : Str) : Prop := w ≠ [] ∧ ∀ c ∈ w, isWhite c = false ∧ c ≠ ';'

/-- white space -/
def IsBlank (w : Str) : Prop := ∀ c ∈ w, isWhite c = true

/-- how a point of a tip is written: two words with white space before, between and after them -/
structure TipEntry where
  lead : Str := []
  first : Str
  gap : Str := [' ']
  second : Str
  trail : Str := []

/-- the text of an entry -/
def TipEntry.text (e : TipEntry) : Str := e.lead ++ (e.first ++ (e.gap ++ (e.second ++ e.trail)))

/-- the words are words, the spaces are white, and there is one between the words -/
def TipEntry.Fine (e : TipEntry) : Prop :=
  IsBlank e.lead ∧ IsWord e.first ∧ IsBlank e.gap ∧ e.gap ≠ [] ∧ IsWord e.second ∧ IsBlank e.trail

/-- the text of a tip: the entries, separated by semicolons -/
def tipText : List TipEntry → Str
  | [] => []
  | [e] => e.text
  | e :: rest => e.text ++ ';' :: tipText rest

end Vpin.Scene
