import Verif.Model.Items.Wall
import Verif.Model.Items.Flipper
import Verif.Model.Items.Timer
import Verif.Model.Items.Plunger
import Verif.Model.Items.TextBox
import Verif.Model.Items.Bumper
import Verif.Model.Items.Trigger
import Verif.Model.Items.Light
import Verif.Model.Items.Kicker
import Verif.Model.Items.Decal
import Verif.Model.Items.Gate
import Verif.Model.Items.Spinner
import Verif.Model.Items.Ramp
import Verif.Model.Items.Reel
import Verif.Model.Items.LightSequencer
import Verif.Model.Items.Primitive
import Verif.Model.Items.Flasher
import Verif.Model.Items.Rubber
import Verif.Model.Items.HitTarget
import Verif.Model.Items.Ball
import Verif.Model.Items.PartGroup
/-
Game items of any kind, /repo/src/vpx/gameitem.rs and /repo/src/vpx/gameitem/generic.rs.
Generated by tools/gen_gameitem.py from the source; each definition cites what it models.
-/
namespace Vpin

/-- `struct Generic`, /repo/src/vpx/gameitem/generic.rs:9-13; record names as tags -/
structure Generic where
  name : Str
  fields : List (Tag × Bytes)
  deriving DecidableEq, Repr

/-- start of `Generic::biff_read`, /repo/src/vpx/gameitem/generic.rs:55-56 -/
def Generic.init : Generic := ⟨[], []⟩

/-- match arms of `Generic::biff_read`, /repo/src/vpx/gameitem/generic.rs:65-72 -/
def Generic.arms : Handlers Generic :=
  [(tag!"NAME", fld getWide fun v s => { s with name := v }),
   (anyTag, fun s => do
     let t ← getTag
     fld getRecordData (fun v s => { s with fields := s.fields ++ [(t, v)] }) s)]

/-- `enum GameItemEnum`, /repo/src/vpx/gameitem.rs:46-69 -/
inductive GameItemEnum where
  | wall (x : Wall)
  | flipper (x : Flipper)
  | timer (x : Timer)
  | plunger (x : Plunger)
  | textBox (x : TextBox)
  | bumper (x : Bumper)
  | trigger (x : Trigger)
  | light (x : Light)
  | kicker (x : Kicker)
  | decal (x : Decal)
  | gate (x : Gate)
  | spinner (x : Spinner)
  | ramp (x : Ramp)
  | reel (x : Reel)
  | lightSequencer (x : LightSequencer)
  | primitive (x : Primitive)
  | flasher (x : Flasher)
  | rubber (x : Rubber)
  | hitTarget (x : HitTarget)
  | ball (x : Ball)
  | partGroup (x : PartGroup)
  | generic (itemType : UInt32) (x : Generic)
  deriving DecidableEq, Repr

/-- the `match item_type` of `read`, /repo/src/vpx/gameitem.rs:849-890 -/
def GameItemEnum.readKind (itemType : UInt32) : R GameItemEnum :=
  if itemType = 0 then GameItemEnum.wall <$> readWith Wall.arms Wall.init
  else if itemType = 1 then GameItemEnum.flipper <$> readWith Flipper.arms Flipper.init
  else if itemType = 2 then GameItemEnum.timer <$> readWith Timer.arms Timer.init
  else if itemType = 3 then GameItemEnum.plunger <$> readWith Plunger.arms Plunger.init
  else if itemType = 4 then GameItemEnum.textBox <$> readWith TextBox.arms TextBox.init
  else if itemType = 5 then GameItemEnum.bumper <$> readWith Bumper.arms Bumper.init
  else if itemType = 6 then GameItemEnum.trigger <$> readWith Trigger.arms Trigger.init
  else if itemType = 7 then GameItemEnum.light <$> readWith Light.arms Light.init
  else if itemType = 8 then GameItemEnum.kicker <$> readWith Kicker.arms Kicker.init
  else if itemType = 9 then GameItemEnum.decal <$> readWith Decal.arms Decal.init
  else if itemType = 10 then GameItemEnum.gate <$> readWith Gate.arms Gate.init
  else if itemType = 11 then GameItemEnum.spinner <$> readWith Spinner.arms Spinner.init
  else if itemType = 12 then GameItemEnum.ramp <$> readWith Ramp.arms Ramp.init
  else if itemType = 13 then R.panic
  else if itemType = 14 then R.panic
  else if itemType = 15 then R.panic
  else if itemType = 16 then R.panic
  else if itemType = 17 then GameItemEnum.reel <$> readWith Reel.arms Reel.init
  else if itemType = 18 then GameItemEnum.lightSequencer <$> readWith LightSequencer.arms LightSequencer.init
  else if itemType = 19 then GameItemEnum.primitive <$> readWith Primitive.arms Primitive.init
  else if itemType = 20 then GameItemEnum.flasher <$> readWith Flasher.arms Flasher.init
  else if itemType = 21 then GameItemEnum.rubber <$> readWith Rubber.arms Rubber.init
  else if itemType = 22 then GameItemEnum.hitTarget <$> readWith HitTarget.arms HitTarget.init
  else if itemType = 23 then GameItemEnum.ball <$> readWith Ball.arms Ball.init
  else if itemType = 24 then GameItemEnum.partGroup <$> readWith PartGroup.arms PartGroup.init
  else GameItemEnum.generic itemType <$> readWith Generic.arms Generic.init

/-- `read(input)`, /repo/src/vpx/gameitem.rs:849-890 -/
def GameItemEnum.read (input : Bytes) : Res GameItemEnum :=
  match (getU32N >>= GameItemEnum.readKind) (Rd.new input) with
  | .ok (v, _) => .ok v
  | .error e => .error e

/-- `write_with_type`, /repo/src/vpx/gameitem.rs:925-930 -/
def writeWithType (itemType : UInt32) (ops : List WOp) : Res Bytes :=
  match runOps (({} : Wr).write (le32 itemType)) ops with
  | .error e => .error e
  | .ok w =>
    match w.close true with
    | .error e => .error e
    | .ok w => .ok w.data

/-- `write`, /repo/src/vpx/gameitem.rs:892-923; other kinds (`Generic`) are not implemented and panic -/
def GameItemEnum.write : GameItemEnum → Res Bytes
  | .wall x => writeWithType 0 x.ops
  | .flipper x => writeWithType 1 x.ops
  | .timer x => writeWithType 2 x.ops
  | .plunger x => writeWithType 3 x.ops
  | .textBox x => writeWithType 4 x.ops
  | .bumper x => writeWithType 5 x.ops
  | .trigger x => writeWithType 6 x.ops
  | .light x => writeWithType 7 x.ops
  | .kicker x => writeWithType 8 x.ops
  | .decal x => writeWithType 9 x.ops
  | .gate x => writeWithType 10 x.ops
  | .spinner x => writeWithType 11 x.ops
  | .ramp x => writeWithType 12 x.ops
  | .reel x => writeWithType 17 x.ops
  | .lightSequencer x => writeWithType 18 x.ops
  | .primitive x => writeWithType 19 x.ops
  | .flasher x => writeWithType 20 x.ops
  | .rubber x => writeWithType 21 x.ops
  | .hitTarget x => writeWithType 22 x.ops
  | .ball x => writeWithType 23 x.ops
  | .partGroup x => writeWithType 24 x.ops
  | .generic _ _ => .error .panic

/-- `editor_layer_visibility`, /repo/src/vpx/gameitem.rs:74-99 -/
def GameItemEnum.editor_layer_visibility : GameItemEnum → Option Bool
  | .wall x => x.shared.editor_layer_visibility
  | .flipper x => x.shared.editor_layer_visibility
  | .timer x => x.shared.editor_layer_visibility
  | .plunger x => x.shared.editor_layer_visibility
  | .textBox x => x.shared.editor_layer_visibility
  | .bumper x => x.shared.editor_layer_visibility
  | .trigger x => x.shared.editor_layer_visibility
  | .light x => x.shared.editor_layer_visibility
  | .kicker x => x.shared.editor_layer_visibility
  | .decal x => x.shared.editor_layer_visibility
  | .gate x => x.shared.editor_layer_visibility
  | .spinner x => x.shared.editor_layer_visibility
  | .ramp x => x.shared.editor_layer_visibility
  | .reel x => x.shared.editor_layer_visibility
  | .lightSequencer x => x.editor_layer_visibility
  | .primitive x => x.shared.editor_layer_visibility
  | .flasher x => x.shared.editor_layer_visibility
  | .rubber x => x.shared.editor_layer_visibility
  | .hitTarget x => x.shared.editor_layer_visibility
  | .ball x => x.shared.editor_layer_visibility
  | .partGroup x => x.editor_layer_visibility
  | .generic _ _ => none

/-- `editor_layer_name`, /repo/src/vpx/gameitem.rs:101-126 -/
def GameItemEnum.editor_layer_name : GameItemEnum → Option Str
  | .wall x => x.shared.editor_layer_name
  | .flipper x => x.shared.editor_layer_name
  | .timer x => x.shared.editor_layer_name
  | .plunger x => x.shared.editor_layer_name
  | .textBox x => x.shared.editor_layer_name
  | .bumper x => x.shared.editor_layer_name
  | .trigger x => x.shared.editor_layer_name
  | .light x => x.shared.editor_layer_name
  | .kicker x => x.shared.editor_layer_name
  | .decal x => x.shared.editor_layer_name
  | .gate x => x.shared.editor_layer_name
  | .spinner x => x.shared.editor_layer_name
  | .ramp x => x.shared.editor_layer_name
  | .reel x => x.shared.editor_layer_name
  | .lightSequencer x => x.editor_layer_name
  | .primitive x => x.shared.editor_layer_name
  | .flasher x => x.shared.editor_layer_name
  | .rubber x => x.shared.editor_layer_name
  | .hitTarget x => x.shared.editor_layer_name
  | .ball x => x.shared.editor_layer_name
  | .partGroup x => x.editor_layer_name
  | .generic _ _ => none

/-- `editor_layer`, /repo/src/vpx/gameitem.rs:128-153 -/
def GameItemEnum.editor_layer : GameItemEnum → Option UInt32
  | .wall x => x.shared.editor_layer
  | .flipper x => x.shared.editor_layer
  | .timer x => x.shared.editor_layer
  | .plunger x => x.shared.editor_layer
  | .textBox x => x.shared.editor_layer
  | .bumper x => x.shared.editor_layer
  | .trigger x => x.shared.editor_layer
  | .light x => x.shared.editor_layer
  | .kicker x => x.shared.editor_layer
  | .decal x => x.shared.editor_layer
  | .gate x => x.shared.editor_layer
  | .spinner x => x.shared.editor_layer
  | .ramp x => x.shared.editor_layer
  | .reel x => x.shared.editor_layer
  | .lightSequencer x => x.editor_layer
  | .primitive x => x.shared.editor_layer
  | .flasher x => x.shared.editor_layer
  | .rubber x => x.shared.editor_layer
  | .hitTarget x => x.shared.editor_layer
  | .ball x => x.shared.editor_layer
  | .partGroup _ => none
  | .generic _ _ => none

/-- `is_locked`, /repo/src/vpx/gameitem.rs:155-180 -/
def GameItemEnum.is_locked : GameItemEnum → Option Bool
  | .wall x => some x.shared.is_locked
  | .flipper x => some x.shared.is_locked
  | .timer x => some x.shared.is_locked
  | .plunger x => some x.shared.is_locked
  | .textBox x => some x.shared.is_locked
  | .bumper x => some x.shared.is_locked
  | .trigger x => some x.shared.is_locked
  | .light x => some x.shared.is_locked
  | .kicker x => some x.shared.is_locked
  | .decal x => some x.shared.is_locked
  | .gate x => some x.shared.is_locked
  | .spinner x => some x.shared.is_locked
  | .ramp x => some x.shared.is_locked
  | .reel x => some x.shared.is_locked
  | .lightSequencer x => x.is_locked
  | .primitive x => some x.shared.is_locked
  | .flasher x => some x.shared.is_locked
  | .rubber x => some x.shared.is_locked
  | .hitTarget x => some x.shared.is_locked
  | .ball x => some x.shared.is_locked
  | .partGroup x => some x.is_locked
  | .generic _ _ => none

/-- `name`, /repo/src/vpx/gameitem.rs:442-467 -/
def GameItemEnum.name : GameItemEnum → Str
  | .wall x => x.name
  | .flipper x => x.name
  | .timer x => x.name
  | .plunger x => x.name
  | .textBox x => x.name
  | .bumper x => x.name
  | .trigger x => x.name
  | .light x => x.name
  | .kicker x => x.name
  | .decal x => x.name
  | .gate x => x.name
  | .spinner x => x.name
  | .ramp x => x.name
  | .reel x => x.name
  | .lightSequencer x => x.name
  | .primitive x => x.name
  | .flasher x => x.name
  | .rubber x => x.name
  | .hitTarget x => x.name
  | .ball x => x.name
  | .partGroup x => x.name
  | .generic _ x => x.name

/-- `part_group_name`, /repo/src/vpx/gameitem.rs:531-559 -/
def GameItemEnum.part_group_name : GameItemEnum → Option Str
  | .wall x => x.shared.part_group_name
  | .flipper x => x.shared.part_group_name
  | .timer x => x.shared.part_group_name
  | .plunger x => x.shared.part_group_name
  | .textBox x => x.shared.part_group_name
  | .bumper x => x.shared.part_group_name
  | .trigger x => x.shared.part_group_name
  | .light x => x.shared.part_group_name
  | .kicker x => x.shared.part_group_name
  | .decal x => x.shared.part_group_name
  | .gate x => x.shared.part_group_name
  | .spinner x => x.shared.part_group_name
  | .ramp x => x.shared.part_group_name
  | .reel x => x.shared.part_group_name
  | .lightSequencer x => x.part_group_name
  | .primitive x => x.shared.part_group_name
  | .flasher x => x.shared.part_group_name
  | .rubber x => x.shared.part_group_name
  | .hitTarget x => x.shared.part_group_name
  | .ball x => x.shared.part_group_name
  | .partGroup _ => none
  | .generic _ _ => none

/-- `is_visible`, /repo/src/vpx/gameitem.rs:697-725 -/
def GameItemEnum.is_visible : GameItemEnum → Option Bool
  | .wall x => some (x.is_top_bottom_visible || x.is_side_visible)
  | .flipper x => some x.is_visible
  | .plunger x => some x.is_visible
  | .trigger x => some x.is_visible
  | .light x => x.visible
  | .gate x => some x.is_visible
  | .spinner x => some x.is_visible
  | .ramp x => some x.is_visible
  | .reel x => some x.is_visible
  | .primitive x => some x.is_visible
  | .flasher x => some x.is_visible
  | .rubber x => some x.is_visible
  | .hitTarget x => some x.is_visible
  | .ball _ => none
  | .bumper _ => none
  | .decal _ => none
  | .kicker _ => none
  | .timer _ => none
  | .textBox _ => none
  | .lightSequencer _ => none
  | .partGroup _ => none
  | .generic _ _ => none

/-- `set_locked`, /repo/src/vpx/gameitem.rs:182-289 -/
def GameItemEnum.set_locked : GameItemEnum → Option Bool → GameItemEnum
  | .wall x => fun o => .wall (match o with | some v => { x with shared := { x.shared with is_locked := v } } | none => x)
  | .flipper x => fun o => .flipper (match o with | some v => { x with shared := { x.shared with is_locked := v } } | none => x)
  | .timer x => fun o => .timer (match o with | some v => { x with shared := { x.shared with is_locked := v } } | none => x)
  | .plunger x => fun o => .plunger (match o with | some v => { x with shared := { x.shared with is_locked := v } } | none => x)
  | .textBox x => fun o => .textBox (match o with | some v => { x with shared := { x.shared with is_locked := v } } | none => x)
  | .bumper x => fun o => .bumper (match o with | some v => { x with shared := { x.shared with is_locked := v } } | none => x)
  | .trigger x => fun o => .trigger (match o with | some v => { x with shared := { x.shared with is_locked := v } } | none => x)
  | .light x => fun o => .light (match o with | some v => { x with shared := { x.shared with is_locked := v } } | none => x)
  | .kicker x => fun o => .kicker (match o with | some v => { x with shared := { x.shared with is_locked := v } } | none => x)
  | .decal x => fun o => .decal (match o with | some v => { x with shared := { x.shared with is_locked := v } } | none => x)
  | .gate x => fun o => .gate (match o with | some v => { x with shared := { x.shared with is_locked := v } } | none => x)
  | .spinner x => fun o => .spinner (match o with | some v => { x with shared := { x.shared with is_locked := v } } | none => x)
  | .ramp x => fun o => .ramp (match o with | some v => { x with shared := { x.shared with is_locked := v } } | none => x)
  | .reel x => fun o => .reel (match o with | some v => { x with shared := { x.shared with is_locked := v } } | none => x)
  | .lightSequencer x => fun o => .lightSequencer { x with is_locked := o }
  | .primitive x => fun o => .primitive (match o with | some v => { x with shared := { x.shared with is_locked := v } } | none => x)
  | .flasher x => fun o => .flasher (match o with | some v => { x with shared := { x.shared with is_locked := v } } | none => x)
  | .rubber x => fun o => .rubber (match o with | some v => { x with shared := { x.shared with is_locked := v } } | none => x)
  | .hitTarget x => fun o => .hitTarget (match o with | some v => { x with shared := { x.shared with is_locked := v } } | none => x)
  | .ball x => fun o => .ball (match o with | some v => { x with shared := { x.shared with is_locked := v } } | none => x)
  | .partGroup x => fun o => .partGroup (match o with | some v => { x with is_locked := v } | none => x)
  | .generic t x => fun _ => .generic t x

/-- `set_editor_layer`, /repo/src/vpx/gameitem.rs:291-356 -/
def GameItemEnum.set_editor_layer : GameItemEnum → Option UInt32 → GameItemEnum
  | .wall x => fun o => .wall { x with shared := { x.shared with editor_layer := o } }
  | .flipper x => fun o => .flipper { x with shared := { x.shared with editor_layer := o } }
  | .timer x => fun o => .timer { x with shared := { x.shared with editor_layer := o } }
  | .plunger x => fun o => .plunger { x with shared := { x.shared with editor_layer := o } }
  | .textBox x => fun o => .textBox { x with shared := { x.shared with editor_layer := o } }
  | .bumper x => fun o => .bumper { x with shared := { x.shared with editor_layer := o } }
  | .trigger x => fun o => .trigger { x with shared := { x.shared with editor_layer := o } }
  | .light x => fun o => .light { x with shared := { x.shared with editor_layer := o } }
  | .kicker x => fun o => .kicker { x with shared := { x.shared with editor_layer := o } }
  | .decal x => fun o => .decal { x with shared := { x.shared with editor_layer := o } }
  | .gate x => fun o => .gate { x with shared := { x.shared with editor_layer := o } }
  | .spinner x => fun o => .spinner { x with shared := { x.shared with editor_layer := o } }
  | .ramp x => fun o => .ramp { x with shared := { x.shared with editor_layer := o } }
  | .reel x => fun o => .reel { x with shared := { x.shared with editor_layer := o } }
  | .lightSequencer x => fun o => .lightSequencer { x with editor_layer := o }
  | .primitive x => fun o => .primitive { x with shared := { x.shared with editor_layer := o } }
  | .flasher x => fun o => .flasher { x with shared := { x.shared with editor_layer := o } }
  | .rubber x => fun o => .rubber { x with shared := { x.shared with editor_layer := o } }
  | .hitTarget x => fun o => .hitTarget { x with shared := { x.shared with editor_layer := o } }
  | .ball x => fun o => .ball { x with shared := { x.shared with editor_layer := o } }
  | .partGroup x => fun _ => .partGroup x
  | .generic t x => fun _ => .generic t x

/-- `set_editor_layer_name`, /repo/src/vpx/gameitem.rs:358-385 -/
def GameItemEnum.set_editor_layer_name : GameItemEnum → Option Str → GameItemEnum
  | .wall x => fun o => .wall { x with shared := { x.shared with editor_layer_name := o } }
  | .flipper x => fun o => .flipper { x with shared := { x.shared with editor_layer_name := o } }
  | .timer x => fun o => .timer { x with shared := { x.shared with editor_layer_name := o } }
  | .plunger x => fun o => .plunger { x with shared := { x.shared with editor_layer_name := o } }
  | .textBox x => fun o => .textBox { x with shared := { x.shared with editor_layer_name := o } }
  | .bumper x => fun o => .bumper { x with shared := { x.shared with editor_layer_name := o } }
  | .trigger x => fun o => .trigger { x with shared := { x.shared with editor_layer_name := o } }
  | .light x => fun o => .light { x with shared := { x.shared with editor_layer_name := o } }
  | .kicker x => fun o => .kicker { x with shared := { x.shared with editor_layer_name := o } }
  | .decal x => fun o => .decal { x with shared := { x.shared with editor_layer_name := o } }
  | .gate x => fun o => .gate { x with shared := { x.shared with editor_layer_name := o } }
  | .spinner x => fun o => .spinner { x with shared := { x.shared with editor_layer_name := o } }
  | .ramp x => fun o => .ramp { x with shared := { x.shared with editor_layer_name := o } }
  | .reel x => fun o => .reel { x with shared := { x.shared with editor_layer_name := o } }
  | .lightSequencer x => fun o => .lightSequencer { x with editor_layer_name := o }
  | .primitive x => fun o => .primitive { x with shared := { x.shared with editor_layer_name := o } }
  | .flasher x => fun o => .flasher { x with shared := { x.shared with editor_layer_name := o } }
  | .rubber x => fun o => .rubber { x with shared := { x.shared with editor_layer_name := o } }
  | .hitTarget x => fun o => .hitTarget { x with shared := { x.shared with editor_layer_name := o } }
  | .ball x => fun o => .ball { x with shared := { x.shared with editor_layer_name := o } }
  | .partGroup x => fun o => .partGroup { x with editor_layer_name := o }
  | .generic t x => fun _ => .generic t x

/-- `set_editor_layer_visibility`, /repo/src/vpx/gameitem.rs:387-438 -/
def GameItemEnum.set_editor_layer_visibility : GameItemEnum → Option Bool → GameItemEnum
  | .wall x => fun o => .wall { x with shared := { x.shared with editor_layer_visibility := o } }
  | .flipper x => fun o => .flipper { x with shared := { x.shared with editor_layer_visibility := o } }
  | .timer x => fun o => .timer { x with shared := { x.shared with editor_layer_visibility := o } }
  | .plunger x => fun o => .plunger { x with shared := { x.shared with editor_layer_visibility := o } }
  | .textBox x => fun o => .textBox { x with shared := { x.shared with editor_layer_visibility := o } }
  | .bumper x => fun o => .bumper { x with shared := { x.shared with editor_layer_visibility := o } }
  | .trigger x => fun o => .trigger { x with shared := { x.shared with editor_layer_visibility := o } }
  | .light x => fun o => .light { x with shared := { x.shared with editor_layer_visibility := o } }
  | .kicker x => fun o => .kicker { x with shared := { x.shared with editor_layer_visibility := o } }
  | .decal x => fun o => .decal { x with shared := { x.shared with editor_layer_visibility := o } }
  | .gate x => fun o => .gate { x with shared := { x.shared with editor_layer_visibility := o } }
  | .spinner x => fun o => .spinner { x with shared := { x.shared with editor_layer_visibility := o } }
  | .ramp x => fun o => .ramp { x with shared := { x.shared with editor_layer_visibility := o } }
  | .reel x => fun o => .reel { x with shared := { x.shared with editor_layer_visibility := o } }
  | .lightSequencer x => fun o => .lightSequencer { x with editor_layer_visibility := o }
  | .primitive x => fun o => .primitive { x with shared := { x.shared with editor_layer_visibility := o } }
  | .flasher x => fun o => .flasher { x with shared := { x.shared with editor_layer_visibility := o } }
  | .rubber x => fun o => .rubber { x with shared := { x.shared with editor_layer_visibility := o } }
  | .hitTarget x => fun o => .hitTarget { x with shared := { x.shared with editor_layer_visibility := o } }
  | .ball x => fun o => .ball { x with shared := { x.shared with editor_layer_visibility := o } }
  | .partGroup x => fun o => .partGroup { x with editor_layer_visibility := o }
  | .generic t x => fun _ => .generic t x

/-- `type_name`, /repo/src/vpx/gameitem.rs:469-494 -/
def GameItemEnum.type_name : GameItemEnum → Str
  | .wall _ => "Wall".toList
  | .flipper _ => "Flipper".toList
  | .timer _ => "Timer".toList
  | .plunger _ => "Plunger".toList
  | .textBox _ => "TextBox".toList
  | .bumper _ => "Bumper".toList
  | .trigger _ => "Trigger".toList
  | .light _ => "Light".toList
  | .kicker _ => "Kicker".toList
  | .decal _ => "Decal".toList
  | .gate _ => "Gate".toList
  | .spinner _ => "Spinner".toList
  | .ramp _ => "Ramp".toList
  | .reel _ => "Reel".toList
  | .lightSequencer _ => "LightSequencer".toList
  | .primitive _ => "Primitive".toList
  | .flasher _ => "Flasher".toList
  | .rubber _ => "Rubber".toList
  | .hitTarget _ => "HitTarget".toList
  | .ball _ => "Ball".toList
  | .partGroup _ => "PartGroup".toList
  | .generic t _ => "Generic_".toList ++ (toString t.toNat).toList

/-- `type_id`, /repo/src/vpx/gameitem.rs:497-527; an unknown name panics -/
def GameItemEnum.type_id (n : Str) : Res UInt32 :=
  if n = "Wall".toList then .ok 0
  else if n = "Flipper".toList then .ok 1
  else if n = "Timer".toList then .ok 2
  else if n = "Plunger".toList then .ok 3
  else if n = "TextBox".toList then .ok 4
  else if n = "Bumper".toList then .ok 5
  else if n = "Trigger".toList then .ok 6
  else if n = "Light".toList then .ok 7
  else if n = "Kicker".toList then .ok 8
  else if n = "Decal".toList then .ok 9
  else if n = "Gate".toList then .ok 10
  else if n = "Spinner".toList then .ok 11
  else if n = "Ramp".toList then .ok 12
  else if n = "Table".toList then .ok 13
  else if n = "LightCenter".toList then .ok 14
  else if n = "DragPoint".toList then .ok 15
  else if n = "Collection".toList then .ok 16
  else if n = "Reel".toList then .ok 17
  else if n = "LightSequencer".toList then .ok 18
  else if n = "Primitive".toList then .ok 19
  else if n = "Flasher".toList then .ok 20
  else if n = "Rubber".toList then .ok 21
  else if n = "HitTarget".toList then .ok 22
  else if n = "Ball".toList then .ok 23
  else if n = "PartGroup".toList then .ok 24
  else if n = "TypeCount".toList then .ok 25
  else .error .panic

/-- `push_nonempty`, /repo/src/vpx/gameitem.rs:566-570 -/
def pushNonempty (s : Str) : List Str := if s.isEmpty then [] else [s]
/-- `push_opt`, /repo/src/vpx/gameitem.rs:571-577 -/
def pushOpt : Option Str → List Str
  | some v => if v.isEmpty then [] else [v]
  | none => []

/-- `images`, /repo/src/vpx/gameitem.rs:565-619 -/
def GameItemEnum.images : GameItemEnum → List Str
  | .ball x => pushNonempty x.image ++ pushNonempty x.image_decal
  | .bumper _ => []
  | .decal x => pushNonempty x.image
  | .flasher x => pushNonempty x.image_a ++ pushNonempty x.image_b ++ pushOpt x.image_src_link ++ pushOpt x.light_map
  | .flipper x => pushOpt x.image
  | .gate _ => []
  | .hitTarget x => pushNonempty x.image
  | .kicker _ => []
  | .light x => pushNonempty x.image
  | .lightSequencer _ => []
  | .plunger x => pushNonempty x.image
  | .primitive x => pushNonempty x.image ++ pushOpt x.normal_map ++ pushOpt x.light_map
  | .ramp x => pushNonempty x.image
  | .reel x => pushNonempty x.image
  | .rubber x => pushNonempty x.image
  | .spinner x => pushNonempty x.image
  | .textBox _ => []
  | .timer _ => []
  | .trigger _ => []
  | .wall x => pushNonempty x.image ++ pushNonempty x.side_image
  | .partGroup _ => []
  | .generic _ _ => []

/-- `materials`, /repo/src/vpx/gameitem.rs:624-675 -/
def GameItemEnum.materials : GameItemEnum → List Str
  | .ball _ => []
  | .bumper x => pushNonempty x.cap_material ++ pushNonempty x.base_material ++ pushOpt x.ring_material ++ pushNonempty x.socket_material
  | .decal x => pushNonempty x.material
  | .flasher _ => []
  | .flipper x => pushNonempty x.material ++ pushNonempty x.rubber_material
  | .gate x => pushNonempty x.material
  | .hitTarget x => pushNonempty x.material
  | .kicker x => pushNonempty x.material
  | .light _ => []
  | .lightSequencer _ => []
  | .plunger x => pushNonempty x.material
  | .primitive x => pushNonempty x.material
  | .ramp x => pushNonempty x.material
  | .reel _ => []
  | .rubber x => pushNonempty x.material
  | .spinner x => pushNonempty x.material
  | .textBox _ => []
  | .timer _ => []
  | .trigger x => pushNonempty x.material
  | .wall x => pushNonempty x.top_material ++ pushNonempty x.side_material ++ pushNonempty x.slingshot_material
  | .partGroup _ => []
  | .generic _ _ => []

/-- `physics_material`, /repo/src/vpx/gameitem.rs:680-690 -/
def GameItemEnum.physics_material (g : GameItemEnum) : Option Str :=
  let s : Option Str := match g with
    | .hitTarget x => x.physics_material
    | .primitive x => x.physics_material
    | .ramp x => x.physics_material
    | .rubber x => x.physics_material
    | .wall x => x.physics_material
    | _ => none
  s.filter fun v => !v.isEmpty

/-- the warning text, /repo/src/vpx/gameitem.rs:751-757 -/
def partGroupWarning (index : Nat) (item : GameItemEnum) (group : Str) : Str :=
  "GameItem[".toList ++ (toString index).toList ++ "] '".toList ++ item.name ++ "' (".toList ++
    item.type_name ++ ") references part_group '".toList ++ group ++
    "' which has not been defined yet".toList

/-- the loop of `validate_part_group_order`, /repo/src/vpx/gameitem.rs:734-761: `defined` is the set of part group names met so
far (as a list) -/
def partGroupLoop (index : Nat) (defined : List Str) : List GameItemEnum → List Str
  | [] => []
  | item :: rest =>
    let defined := match item with
      | .partGroup pg => pg.name :: defined
      | _ => defined
    let warning := match item.part_group_name with
      | some g => if g ∈ defined then [] else [partGroupWarning index item g]
      | none => []
    warning ++ partGroupLoop (index + 1) defined rest

/-- `validate_part_group_order`, /repo/src/vpx/gameitem.rs:734-761 -/
def validatePartGroupOrder (items : List GameItemEnum) : List Str := partGroupLoop 0 [] items

end Vpin
