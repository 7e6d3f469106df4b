import Verif.Spec.GltfParts
import Verif.Model.GltfCollect
/-
The meshes that the items with built-in shapes have in the glTF export, and their colours.
-/
namespace Vpin.Scene
open Vpin Arith
variable [Arith]

/-- a part of an item: what is added to the name of the item, its mesh if it has that part, how much it is stretched,
and the colour it is given -/
structure GltfShape where
  suffix : String
  mesh : Option RawMesh
  scale : Option Vec3 := none
  tint : Option Rgba := none

/-- a colour of the table with an alpha: the bytes as parts of 255 (`0x437f0000` are its bits) -/
def tintOf (c : Color) (a : F32) : Rgba :=
  ⟨ofNat c.r.toNat /ᶠ 0x437f0000, ofNat c.g.toNat /ᶠ 0x437f0000, ofNat c.b.toNat /ᶠ 0x437f0000, a⟩

/-- the colour of a kicker: grey (0.75, 0.75, 0.78) for cups, brown (0.72, 0.53, 0.25) for Williams, (0.45, 0.42, 0.4) for
Gottlieb and dark wood (0.36, 0.25, 0.15) for holes -/
def kickerTint : KickerType → Option Rgba
  | .Cup | .Cup2 => some ⟨0x3f400000, 0x3f400000, 0x3f47ae14, 0x3f800000⟩
  | .Williams => some ⟨0x3f3851ec, 0x3f07ae14, 0x3e800000, 0x3f800000⟩
  | .Gottlieb => some ⟨0x3ee66666, 0x3ed70a3d, 0x3ecccccd, 0x3f800000⟩
  | .Hole | .HoleSimple => some ⟨0x3eb851ec, 0x3e800000, 0x3e19999a, 0x3f800000⟩
  | .Invisible => none

/-- the parts of the items whose meshes are computed by functions of `S`. Primitives, walls, ramps and rubbers have
theorems of their own. Flashers have their colour, with the alpha in percent; a bulb is glass (alpha 0.2), its socket dark
grey (0.094), the insert has the light's colour (alpha 0.3); the plate of a kicker is nearly black (0.02); balls that are
not white have their colour. -/
def gltfShapes (S : GltfStock) (vpx : VPX) : GameItemEnum → List GltfShape
  | .flasher f =>
    let m := S.flasher f ⟨vpx.gamedata.left, vpx.gamedata.top, vpx.gamedata.right, vpx.gamedata.bottom⟩
    [{ suffix := "", mesh := m.map (·.1), tint := some (tintOf f.color (f32OfInt32 f.alpha /ᶠ 0x42c80000)) }]
  | .flipper f => [{ suffix := "Base", mesh := (S.flipper f).map (·.2.1) },
      { suffix := "Rubber", mesh := (S.flipper f).bind (·.2.2) }]
  | .bumper b => [{ suffix := "Base", mesh := (S.bumper b).base }, { suffix := "Socket", mesh := (S.bumper b).socket },
      { suffix := "Ring", mesh := (S.bumper b).ring }, { suffix := "Cap", mesh := (S.bumper b).cap }]
  | .spinner s => [{ suffix := "Bracket", mesh := (S.spinner s).1 }, { suffix := "Plate", mesh := some (S.spinner s).2 }]
  | .hitTarget h => [{ suffix := "", mesh := S.hitTarget h }]
  | .gate g => [{ suffix := "Bracket", mesh := (S.gate g).bind (·.1) },
      { suffix := "Wire", mesh := (S.gate g).map (·.2), scale := some ⟨g.length, g.length, g.length⟩ }]
  | .trigger t => [{ suffix := "", mesh := S.trigger t }]
  | .light l =>
    let bulb := if lightShowBulbMesh l vpx.version then S.light l else none
    let insert := S.insert l ⟨vpx.gamedata.left, vpx.gamedata.top, vpx.gamedata.right, vpx.gamedata.bottom⟩
    [{ suffix := "_bulb", mesh := bulb.bind (·.1), tint := some ⟨0x3f800000, 0x3f800000, 0x3f800000, 0x3e4ccccd⟩ },
     { suffix := "_socket", mesh := bulb.bind (·.2), tint := some ⟨0x3dc08312, 0x3dc08312, 0x3dc08312, 0x3f800000⟩ },
     { suffix := "_insert", mesh := insert.map (·.1), tint := some (tintOf l.color 0x3e99999a) }]
  | .plunger p => [{ suffix := "Flat", mesh := (S.plunger p).flat_rod }, { suffix := "Rod", mesh := (S.plunger p).rod },
      { suffix := "Spring", mesh := (S.plunger p).spring }, { suffix := "Ring", mesh := (S.plunger p).ring },
      { suffix := "Tip", mesh := (S.plunger p).tip }]
  | .kicker k => [{ suffix := "Plate", mesh := (S.kicker k).1, tint := some ⟨0x3ca3d70a, 0x3ca3d70a, 0x3ca3d70a, 0x3f800000⟩ },
      { suffix := "Kicker", mesh := (S.kicker k).2, tint := kickerTint k.kicker_type }]
  | .decal d => [{ suffix := "", mesh := S.decal d }]
  | .ball b =>
    let white := b.color.r = 255 ∧ b.color.g = 255 ∧ b.color.b = 255
    [{ suffix := "", mesh := some (S.ball b), tint := if white then none else some (tintOf b.color 0x3f800000) }]
  | _ => []

/-- the item has a mesh of another kind: from its file, or drawn with points -/
def ownMesh : GameItemEnum → Bool
  | .primitive _ | .wall _ | .ramp _ | .rubber _ => true
  | _ => false

/-- the item can be seen in the game on the table -/
def onTable : GameItemEnum → Bool
  | .flasher x => x.is_visible
  | .flipper x => x.is_visible
  | .spinner x => x.is_visible
  | .hitTarget x => x.is_visible
  | .gate x => x.is_visible
  | .trigger x => x.is_visible
  | .plunger x => x.is_visible
  | .kicker k => k.kicker_type ≠ .Invisible
  | .light l => !l.is_backglass
  | _ => true

/-- a mesh that comes with a centre of its own, in the coordinates of the table -/
def ownCentre (S : GltfStock) (vpx : VPX) : GameItemEnum → Option Vec3
  | .flasher f => (S.flasher f
      ⟨vpx.gamedata.left, vpx.gamedata.top, vpx.gamedata.right, vpx.gamedata.bottom⟩).map (·.2)
  | .flipper f => (S.flipper f).map (·.1)
  | .hitTarget h => some ⟨h.position.x, h.position.y, h.position.z⟩
  | .ball b => some ⟨b.pos.x, b.pos.y, b.pos.z⟩
  | _ => none

end Vpin.Scene
