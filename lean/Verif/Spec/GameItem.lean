import Verif.Model.GameItem
import Verif.Spec.Items
import Verif.Spec.Reach
/-
Kinds of game items and their numbers in the file, and which items the file format can hold.
Generated by tools/gen_gameitem.py; the numbers are those of the list in the comment
/repo/src/vpx/gameitem.rs:763-790.
-/
namespace Vpin

/-- the kinds of game items a table file can contain -/
inductive Kind where
  | wall
  | flipper
  | timer
  | plunger
  | textBox
  | bumper
  | trigger
  | light
  | kicker
  | decal
  | gate
  | spinner
  | ramp
  | reel
  | lightSequencer
  | primitive
  | flasher
  | rubber
  | hitTarget
  | ball
  | partGroup
  deriving DecidableEq, Repr

/-- the number of each kind -/
def Kind.number : Kind → UInt32
  | .wall => 0
  | .flipper => 1
  | .timer => 2
  | .plunger => 3
  | .textBox => 4
  | .bumper => 5
  | .trigger => 6
  | .light => 7
  | .kicker => 8
  | .decal => 9
  | .gate => 10
  | .spinner => 11
  | .ramp => 12
  | .reel => 17
  | .lightSequencer => 18
  | .primitive => 19
  | .flasher => 20
  | .rubber => 21
  | .hitTarget => 22
  | .ball => 23
  | .partGroup => 24

/-- the name of each kind -/
def Kind.label : Kind → String
  | .wall => "Wall"
  | .flipper => "Flipper"
  | .timer => "Timer"
  | .plunger => "Plunger"
  | .textBox => "TextBox"
  | .bumper => "Bumper"
  | .trigger => "Trigger"
  | .light => "Light"
  | .kicker => "Kicker"
  | .decal => "Decal"
  | .gate => "Gate"
  | .spinner => "Spinner"
  | .ramp => "Ramp"
  | .reel => "Reel"
  | .lightSequencer => "LightSequencer"
  | .primitive => "Primitive"
  | .flasher => "Flasher"
  | .rubber => "Rubber"
  | .hitTarget => "HitTarget"
  | .ball => "Ball"
  | .partGroup => "PartGroup"

/-- the kind of an item; none for one of unknown kind -/
def GameItemEnum.kind : GameItemEnum → Option Kind
  | .wall _ => some .wall
  | .flipper _ => some .flipper
  | .timer _ => some .timer
  | .plunger _ => some .plunger
  | .textBox _ => some .textBox
  | .bumper _ => some .bumper
  | .trigger _ => some .trigger
  | .light _ => some .light
  | .kicker _ => some .kicker
  | .decal _ => some .decal
  | .gate _ => some .gate
  | .spinner _ => some .spinner
  | .ramp _ => some .ramp
  | .reel _ => some .reel
  | .lightSequencer _ => some .lightSequencer
  | .primitive _ => some .primitive
  | .flasher _ => some .flasher
  | .rubber _ => some .rubber
  | .hitTarget _ => some .hitTarget
  | .ball _ => some .ball
  | .partGroup _ => some .partGroup
  | .generic _ _ => none

/-- the item is of a known kind and the file format can hold its fields -/
def GameItemEnum.WF : GameItemEnum → Prop
  | .wall x => x.WF
  | .flipper x => x.WF
  | .timer x => x.WF
  | .plunger x => x.WF
  | .textBox x => x.WF
  | .bumper x => x.WF
  | .trigger x => x.WF
  | .light x => x.WF
  | .kicker x => x.WF
  | .decal x => x.WF
  | .gate x => x.WF
  | .spinner x => x.WF
  | .ramp x => x.WF
  | .reel x => x.WF
  | .lightSequencer x => x.WF
  | .primitive x => x.WF
  | .flasher x => x.WF
  | .rubber x => x.WF
  | .hitTarget x => x.WF
  | .ball x => x.WF
  | .partGroup x => x.WF
  | .generic _ _ => False

/-- the record names the reader of each kind knows (as tags) -/
def Kind.tags : Kind → List Tag
  | .wall => Wall.arms.map (·.1)
  | .flipper => Flipper.arms.map (·.1)
  | .timer => Timer.arms.map (·.1)
  | .plunger => Plunger.arms.map (·.1)
  | .textBox => TextBox.arms.map (·.1)
  | .bumper => Bumper.arms.map (·.1)
  | .trigger => Trigger.arms.map (·.1)
  | .light => Light.arms.map (·.1)
  | .kicker => Kicker.arms.map (·.1)
  | .decal => Decal.arms.map (·.1)
  | .gate => Gate.arms.map (·.1)
  | .spinner => Spinner.arms.map (·.1)
  | .ramp => Ramp.arms.map (·.1)
  | .reel => Reel.arms.map (·.1)
  | .lightSequencer => LightSequencer.arms.map (·.1)
  | .primitive => Primitive.arms.map (·.1)
  | .flasher => Flasher.arms.map (·.1)
  | .rubber => Rubber.arms.map (·.1)
  | .hitTarget => HitTarget.arms.map (·.1)
  | .ball => Ball.arms.map (·.1)
  | .partGroup => PartGroup.arms.map (·.1)

/-- reading `pre ++ post` as the records of an item of this kind, the reader gets to a record
boundary between the two -/
def Kind.Boundary : Kind → Bytes → Bytes → Prop
  | .wall => Vpin.Boundary Wall.arms Wall.init
  | .flipper => Vpin.Boundary Flipper.arms Flipper.init
  | .timer => Vpin.Boundary Timer.arms Timer.init
  | .plunger => Vpin.Boundary Plunger.arms Plunger.init
  | .textBox => Vpin.Boundary TextBox.arms TextBox.init
  | .bumper => Vpin.Boundary Bumper.arms Bumper.init
  | .trigger => Vpin.Boundary Trigger.arms Trigger.init
  | .light => Vpin.Boundary Light.arms Light.init
  | .kicker => Vpin.Boundary Kicker.arms Kicker.init
  | .decal => Vpin.Boundary Decal.arms Decal.init
  | .gate => Vpin.Boundary Gate.arms Gate.init
  | .spinner => Vpin.Boundary Spinner.arms Spinner.init
  | .ramp => Vpin.Boundary Ramp.arms Ramp.init
  | .reel => Vpin.Boundary Reel.arms Reel.init
  | .lightSequencer => Vpin.Boundary LightSequencer.arms LightSequencer.init
  | .primitive => Vpin.Boundary Primitive.arms Primitive.init
  | .flasher => Vpin.Boundary Flasher.arms Flasher.init
  | .rubber => Vpin.Boundary Rubber.arms Rubber.init
  | .hitTarget => Vpin.Boundary HitTarget.arms HitTarget.init
  | .ball => Vpin.Boundary Ball.arms Ball.init
  | .partGroup => Vpin.Boundary PartGroup.arms PartGroup.init

end Vpin
