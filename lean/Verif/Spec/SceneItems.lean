import Verif.Spec.Scene
/-
Meshes whose faces only use their own vertices.
-/
namespace Vpin.Scene

open Vpin

/-- the corners of the faces are vertices of the mesh -/
def FacesInside (vertices : Nat) (faces : List Face) : Prop :=
  ∀ f ∈ faces, ∀ i ∈ [f.i0, f.i1, f.i2], 0 ≤ i ∧ i < vertices

/-- the same of a mesh -/
def MeshInside (m : RawMesh) : Prop := FacesInside m.vertices.length m.faces

/-- the meshes of bumpers, plungers, flippers, gates, kickers, spinners, hit targets and triggers only use their own
vertices -/
structure StockInside (S : Stock) : Prop where
  bumper : ∀ b m, m ∈ [(S.bumper b).base, (S.bumper b).ring, (S.bumper b).socket, (S.bumper b).cap].filterMap id →
    MeshInside m
  plunger : ∀ p m, m ∈ [(S.plunger p).flat_rod, (S.plunger p).rod, (S.plunger p).spring, (S.plunger p).ring,
    (S.plunger p).tip].filterMap id → MeshInside m
  flipper : ∀ f c base rubber, S.flipper f = some (c, base, rubber) →
    MeshInside base ∧ ∀ m, rubber = some m → MeshInside m
  gate : ∀ g bracket wire, S.gate g = some (bracket, wire) → MeshInside wire ∧ ∀ m, bracket = some m → MeshInside m
  kicker : ∀ k m, m ∈ [(S.kicker k).1, (S.kicker k).2].filterMap id → MeshInside m
  spinner : ∀ s, MeshInside (S.spinner s).2 ∧ ∀ m, (S.spinner s).1 = some m → MeshInside m
  hitTarget : ∀ h m, S.hitTarget h = some m → MeshInside m
  trigger : ∀ t m, S.trigger t = some m → MeshInside m

/-- the wall or ramp an item stands on: the first one of that name, whatever the case of its ASCII letters -/
def standsOn (items : List GameItemEnum) (surface : Str) : Option GameItemEnum :=
  if surface = [] then none
  else items.find? fun
    | .wall w => w.name.map asciiLower == surface.map asciiLower
    | .ramp r => r.name.map asciiLower == surface.map asciiLower
    | _ => false

/-- a part of an item: what is added to its name, its material (none: the one before is kept) and its texture -/
structure Part where
  suffix : String
  material : Option Str
  texture : Option Str

/-- a texture or a material without a name is none -/
def named (s : Str) : Option Str := if s = [] then none else some s

/-- the parts an item may have -/
def partsOf (g : GameData) (textures : Bool) : GameItemEnum → List Part
  | .primitive p =>
    if p.name.map asciiLower = "playfield_mesh".toList then [⟨"", some g.playfield_material, named g.image⟩]
    else [⟨"", some p.material, named p.image⟩]
  | .wall w =>
    match w.is_top_bottom_visible, w.is_side_visible with
    | true, false => [⟨"", some (if w.image = [] then "none".toList else w.image), named w.image⟩]
    | false, true => [⟨"", some w.side_material, named w.side_image⟩]
    | true, true =>
      if textures then [⟨"Side", some w.side_material, named w.side_image⟩, ⟨"Top", some w.top_material, named w.image⟩]
      else [⟨"", some w.top_material, none⟩]
    | false, false => []
  | .ramp r => if r.is_visible then [⟨"", some r.material, named r.image⟩] else []
  | .rubber r => if r.is_visible then [⟨"", some r.material, none⟩] else []
  | .bumper b =>
    [⟨"Base", some b.base_material, none⟩, ⟨"Ring", none, none⟩, ⟨"Skirt", some b.socket_material, none⟩,
     ⟨"Cap", some b.cap_material, none⟩]
  | .flipper f => [⟨"Base", some f.material, f.image.bind named⟩, ⟨"Rubber", some f.rubber_material, none⟩]
  | .gate g => [⟨"Bracket", some g.material, none⟩, ⟨"Wire", some g.material, none⟩]
  | .kicker k =>
    if k.kicker_type = .Invisible then [] else [⟨"Plate", some k.material, none⟩, ⟨"", some k.material, none⟩]
  | .spinner s => [⟨"Bracket", some s.material, none⟩, ⟨"Plate", none, none⟩]
  | .hitTarget h => [⟨"", some h.material, named h.image⟩]
  | .trigger t => if t.is_visible then [⟨"", some t.material, none⟩] else []
  | .plunger p =>
    if p.is_visible then
      ["Flat", "Rod", "Spring", "Ring", "Tip"].map fun s => ⟨s, named p.material, named p.image⟩
    else []
  | _ => []

/-- what the parts of an item stand on, and how much higher than that they are; `none`: their vertices are at their
places already, or the mesh comes with a centre -/
def standing [Arith] : GameItemEnum → Option (F32 × F32 × Str × Option F32)
  | .bumper b => some (b.center.x, b.center.y, b.surface, none)
  | .gate g => some (g.center.x, g.center.y, g.surface, some g.height)
  | .kicker k => some (k.center.x, k.center.y, k.surface, none)
  | .spinner s => some (s.center.x, s.center.y, s.surface, some s.height)
  | .trigger t => some (t.center.x, t.center.y, t.surface, none)
  | .plunger p => some (p.center.x, p.center.y, p.surface, some p.z_adjust)
  | _ => none

end Vpin.Scene
