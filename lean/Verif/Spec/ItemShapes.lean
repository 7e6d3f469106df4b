import Verif.Spec.Placement
import Verif.Model.ItemMesh
/-
Words for the shapes of items.
-/
namespace Vpin.Geometry

open Lean.Grind Vpin

variable {α : Type} [Field α]

/-- the square of the distance of two points -/
def sqDist (p q : V3 α) : α := dot (sub p q) (sub p q)

/-- the square of the distance of two points seen from above -/
def sqDistXy (p q : V3 α) : α := (p.x - q.x) * (p.x - q.x) + (p.y - q.y) * (p.y - q.y)

/-- all distances times `k` -/
def Similar (f : V3 α → V3 α) (k : α) : Prop := ∀ p q, sqDist (f p) (f q) = k * k * sqDist p q

/-- a map of directions that keeps lengths and angles -/
def Turning (f : V3 α → V3 α) : Prop := ∀ n m, dot (f n) (f m) = dot n m

/-- what is at a right angle to an edge stays so -/
def KeepsRightAngles (f g : V3 α → V3 α) : Prop := ∀ n p q, dot n (sub p q) = 0 → dot (g n) (sub (f p) (f q)) = 0

end Vpin.Geometry

namespace Vpin.Scene

open Vpin

/-- a mesh that is a table of the program with every vertex placed anew: the same triangles, the same texture
coordinates; a vertex goes to `point` of its place, and its normal to `normal` of its normal -/
structure PlacedTable (m : RawMesh) (t : MeshTable) (point normal : V3 F32 → V3 F32) : Prop where
  faces : m.faces = t.tris.map fun x => ⟨x.1, x.2.1, x.2.2⟩
  count : m.vertices.length = t.vertices.length
  vertex : ∀ (k : Nat) v w, t.vertices[k]? = some v → m.vertices[k]? = some w →
    ⟨w.x, w.y, w.z⟩ = point ⟨v.x, v.y, v.z⟩ ∧ ⟨w.nx, w.ny, w.nz⟩ = normal ⟨v.nx, v.ny, v.nz⟩ ∧
      w.tu = v.tu ∧ w.tv = v.tv

/-- a mesh that is there exactly if `shown`, and then is the table with every vertex placed anew -/
def Shown (o : Option RawMesh) (shown : Prop) (t : MeshTable) (point normal : V3 F32 → V3 F32) : Prop :=
  (o.isSome = true ↔ shown) ∧ ∀ m, o = some m → PlacedTable m t point normal

/-- what the mesh of a trigger of some shape is made of -/
structure TriggerLook where
  /-- the table -/
  table : MeshTables → MeshTable
  /-- the angle, in degrees, by which it is tilted about the x axis before it is turned -/
  tilt : Option F32 := none
  /-- how far it is moved up -/
  lift : F32 := 0
  /-- whether its size is its radius, and not its two scales -/
  byRadius : Bool := false
  /-- whether it is made of wire that has a thickness -/
  wire : Bool := false

/-- the looks of the shapes: a trigger without a shape has none -/
def triggerLook : TriggerShape → Option TriggerLook
  | .None => none
  | .WireA => some { table := (·.triggerSimple), wire := true }
  | .WireB => some { table := (·.triggerSimple), tilt := some 0xc1b80000 /- -23 -/, wire := true }
  | .WireC =>
    some { table := (·.triggerSimple), tilt := some 0x430c0000 /- 140 -/, lift := 0xc1980000 /- -19 -/, wire := true }
  | .WireD => some { table := (·.triggerWireD), wire := true }
  | .Inder => some { table := (·.triggerInder), wire := true }
  | .Star => some { table := (·.triggerStar), byRadius := true }
  | .Button => some { table := (·.triggerButton), lift := 0x40a00000 /- 5 -/, byRadius := true }

/-- what the body of a kicker of some type is made of: its table, how far it is moved up, and the angle by which it is
turned, given the orientation of the kicker and that plus 90 degrees -/
def kickerLook (T : MeshTables) (orientation further : F32) : KickerType → Option (MeshTable × F32 × F32)
  | .Invisible => none
  | .Cup => some (T.kickerCup, 0xbe3851ec /- -0.18 -/, orientation)
  | .Cup2 => some (T.kickerT1, 0, orientation)
  | .Gottlieb => some (T.kickerGottlieb, 0, orientation)
  | .Williams => some (T.kickerWilliams, 0, further)
  | .Hole => some (T.kickerHole, 0, 0)
  | .HoleSimple => some (T.kickerSimpleHole, 0, 0)

end Vpin.Scene
