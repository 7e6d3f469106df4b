import Verif.Spec.SceneItems
import Verif.Model.GltfCollect
/-
The parts that the items of a table may have in the glTF export.
-/
namespace Vpin.Scene
open Vpin

/-- a part of an item: what is added to its name, its material, its texture, and whether it is seen in the game -/
structure GltfPart where
  suffix : String
  material : Option Str
  texture : Option Str
  seen : Bool

/-- the parts an item may have -/
def gltfParts (vpx : VPX) : GameItemEnum → List GltfPart
  | .primitive p =>
    if p.name.map asciiLower = "playfield_mesh".toList then
      [⟨"", some (if vpx.gamedata.playfield_material = [] then "__playfield__".toList
        else vpx.gamedata.playfield_material), named vpx.gamedata.image, primitiveIsVisible p vpx.version⟩]
    else [⟨"", named p.material, named p.image, primitiveIsVisible p vpx.version⟩]
  | .wall w =>
    [⟨"Top", named w.top_material, named w.image, w.is_top_bottom_visible⟩,
     ⟨"Side", named w.side_material, named w.side_image, w.is_side_visible⟩]
  | .ramp r => [⟨"", named r.material, named r.image, r.is_visible⟩]
  | .rubber r => [⟨"", named r.material, none, r.is_visible⟩]
  | .flasher f => [⟨"", none, named f.image_a, f.is_visible⟩]
  | .flipper f =>
    [⟨"Base", named f.material, f.image.bind named, f.is_visible⟩, ⟨"Rubber", named f.rubber_material, none, f.is_visible⟩]
  | .bumper b =>
    [⟨"Base", named b.base_material, none, true⟩, ⟨"Socket", named b.socket_material, none, true⟩,
     ⟨"Ring", b.ring_material.bind named, none, true⟩, ⟨"Cap", named b.cap_material, none, true⟩]
  | .spinner s =>
    [⟨"Bracket", none, none, s.is_visible⟩, ⟨"Plate", named s.material, named s.image, s.is_visible⟩]
  | .hitTarget h => [⟨"", named h.material, named h.image, h.is_visible⟩]
  | .gate g => [⟨"Bracket", named g.material, none, g.is_visible⟩, ⟨"Wire", named g.material, none, g.is_visible⟩]
  | .trigger t => [⟨"", named t.material, none, t.is_visible⟩]
  | .light l =>
    if l.is_backglass then []
    else [⟨"_bulb", none, none, l.visible.getD true⟩, ⟨"_socket", none, none, l.visible.getD true⟩,
      ⟨"_insert", none, if l.is_bulb_light then none else named l.image, l.visible.getD true⟩]
  | .plunger p => ["Flat", "Rod", "Spring", "Ring", "Tip"].map fun s => ⟨s, named p.material, named p.image, p.is_visible⟩
  | .kicker k =>
    if k.kicker_type = .Invisible then []
    else [⟨"Plate", named k.material, none, true⟩, ⟨"Kicker", named k.material, none, true⟩]
  | .decal d => [⟨"", named d.material, named d.image, true⟩]
  | .ball b =>
    [⟨"", none, if b.decal_mode || vpx.gamedata.ball_decal_mode then
      named (if b.image_decal = [] then vpx.gamedata.ball_image_front else b.image_decal) else none, true⟩]
  | _ => []

/-- the layer of an item: its name, or else its number counted from one -/
def layerOf (name : Option Str) (number : Option UInt32) : Option Str :=
  match name with
  | some (c :: cs) => some ("Layer_".toList ++ (c :: cs))
  | _ => number.map fun n => "Layer_".toList ++ decimal (n + 1).toNat

/-- where a part is: the centre of its item, what the item stands on, and how much higher it is; `none`: the vertices
are at their places already, or the mesh comes with a centre of its own -/
def gltfStanding : GameItemEnum → Option (F32 × F32 × Str × Option F32)
  | .bumper b => some (b.center.x, b.center.y, b.surface, none)
  | .gate g => some (g.center.x, g.center.y, g.surface, some g.height)
  | .kicker k => some (k.center.x, k.center.y, k.surface, none)
  | .spinner s => some (s.center.x, s.center.y, s.surface, some s.height)
  | .trigger t => some (t.center.x, t.center.y, t.surface, none)
  | .plunger p => some (p.center.x, p.center.y, p.surface, some p.z_adjust)
  | .decal d => some (d.center.x, d.center.y, d.surface, some 0x3e4ccccd)
  | _ => none

end Vpin.Scene
