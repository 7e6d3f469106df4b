import Verif.Model.ItemJson
import Verif.Model.Gltf
/-
The JSON form of game items of any kind and the item index of an expanded table. Generated by tools/gen_json.py.
-/
namespace Vpin

/-- the name of a record as a text of four characters (used in /repo/src/vpx/gameitem/generic.rs:10-13) -/
def tagText (t : Tag) : Str := [0, 1, 2, 3].map fun i => Char.ofNat (byteAt t i).toNat

/-- the record of this name; names that are not four Latin-1 characters are not modelled (used in
/repo/src/vpx/gameitem/generic.rs:10-13) -/
def tagOfText : Str → Res Tag
  | [a, b, c, d] =>
    if a.toNat < 256 ∧ b.toNat < 256 ∧ c.toNat < 256 ∧ d.toNat < 256 then
      .ok (a.toNat + 256 * (b.toNat + 256 * (c.toNat + 256 * d.toNat)))
    else .error .io
  | _ => .error .io

/-- one of the `fields: Vec<(String, Vec<u8>)>` of `GenericJson`, /repo/src/vpx/gameitem/generic.rs:16-19 -/
def jGenericField : Codec (Tag × Bytes) where
  toJ f := .arr [.str (tagText f.1), (jVec jU8).toJ f.2]
  ofJ | .arr [.str s, j] =>
        match tagOfText s with
        | .error e => .error e
        | .ok t => (fun bs => (t, bs)) <$> (jVec jU8).ofJ j
      | _ => .error .io

/-- `GenericJson`, /repo/src/vpx/gameitem/generic.rs:15-46 -/
def Generic.jsonFields : List (JField Generic) :=
  [.req [key!"name"] jStr (·.name) fun v s => { s with name := v },
   .req [key!"fields"] (jVec jGenericField) (·.fields) fun v s => { s with fields := v }]

/-- `Serialize` and `Deserialize` of `Generic`, /repo/src/vpx/gameitem/generic.rs:10-13 -/
def jGeneric : Codec Generic := jStruct Generic.jsonFields Generic.init

/-- `Serialize` of `GameItemEnum` (derived): an object with the name of the variant, /repo/src/vpx/gameitem.rs:44-69 -/
def GameItemEnum.toJ : GameItemEnum → J
  | .wall x => .obj [(key!"Wall", jWall.toJ x)]
  | .flipper x => .obj [(key!"Flipper", jFlipper.toJ x)]
  | .timer x => .obj [(key!"Timer", jTimer.toJ x)]
  | .plunger x => .obj [(key!"Plunger", jPlunger.toJ x)]
  | .textBox x => .obj [(key!"TextBox", jTextBox.toJ x)]
  | .bumper x => .obj [(key!"Bumper", jBumper.toJ x)]
  | .trigger x => .obj [(key!"Trigger", jTrigger.toJ x)]
  | .light x => .obj [(key!"Light", jLight.toJ x)]
  | .kicker x => .obj [(key!"Kicker", jKicker.toJ x)]
  | .decal x => .obj [(key!"Decal", jDecal.toJ x)]
  | .gate x => .obj [(key!"Gate", jGate.toJ x)]
  | .spinner x => .obj [(key!"Spinner", jSpinner.toJ x)]
  | .ramp x => .obj [(key!"Ramp", jRamp.toJ x)]
  | .reel x => .obj [(key!"Reel", jReel.toJ x)]
  | .lightSequencer x => .obj [(key!"LightSequencer", jLightSequencer.toJ x)]
  | .primitive x => .obj [(key!"Primitive", jPrimitive.toJ x)]
  | .flasher x => .obj [(key!"Flasher", jFlasher.toJ x)]
  | .rubber x => .obj [(key!"Rubber", jRubber.toJ x)]
  | .hitTarget x => .obj [(key!"HitTarget", jHitTarget.toJ x)]
  | .ball x => .obj [(key!"Ball", jBall.toJ x)]
  | .partGroup x => .obj [(key!"PartGroup", jPartGroup.toJ x)]
  | .generic t x => .obj [(key!"Generic", .arr [jU32.toJ t, jGeneric.toJ x])]

/-- the two values of the variant `Generic`, /repo/src/vpx/gameitem.rs:68 -/
def genericOfJ : J → Res GameItemEnum
  | .arr [t, x] =>
    match jU32.ofJ t with
    | .error e => .error e
    | .ok t => GameItemEnum.generic t <$> jGeneric.ofJ x
  | _ => .error .io

/-- `Deserialize` of `GameItemEnum` (derived), /repo/src/vpx/gameitem.rs:44-69 -/
def GameItemEnum.ofJ : J → Res GameItemEnum
  | .obj [(k, j)] =>
    if k = key!"Wall" then GameItemEnum.wall <$> jWall.ofJ j
    else if k = key!"Flipper" then GameItemEnum.flipper <$> jFlipper.ofJ j
    else if k = key!"Timer" then GameItemEnum.timer <$> jTimer.ofJ j
    else if k = key!"Plunger" then GameItemEnum.plunger <$> jPlunger.ofJ j
    else if k = key!"TextBox" then GameItemEnum.textBox <$> jTextBox.ofJ j
    else if k = key!"Bumper" then GameItemEnum.bumper <$> jBumper.ofJ j
    else if k = key!"Trigger" then GameItemEnum.trigger <$> jTrigger.ofJ j
    else if k = key!"Light" then GameItemEnum.light <$> jLight.ofJ j
    else if k = key!"Kicker" then GameItemEnum.kicker <$> jKicker.ofJ j
    else if k = key!"Decal" then GameItemEnum.decal <$> jDecal.ofJ j
    else if k = key!"Gate" then GameItemEnum.gate <$> jGate.ofJ j
    else if k = key!"Spinner" then GameItemEnum.spinner <$> jSpinner.ofJ j
    else if k = key!"Ramp" then GameItemEnum.ramp <$> jRamp.ofJ j
    else if k = key!"Reel" then GameItemEnum.reel <$> jReel.ofJ j
    else if k = key!"LightSequencer" then GameItemEnum.lightSequencer <$> jLightSequencer.ofJ j
    else if k = key!"Primitive" then GameItemEnum.primitive <$> jPrimitive.ofJ j
    else if k = key!"Flasher" then GameItemEnum.flasher <$> jFlasher.ofJ j
    else if k = key!"Rubber" then GameItemEnum.rubber <$> jRubber.ofJ j
    else if k = key!"HitTarget" then GameItemEnum.hitTarget <$> jHitTarget.ofJ j
    else if k = key!"Ball" then GameItemEnum.ball <$> jBall.ofJ j
    else if k = key!"PartGroup" then GameItemEnum.partGroup <$> jPartGroup.ofJ j
    else if k = key!"Generic" then genericOfJ j
    else .error .io
  | _ => .error .io

/-- `GameItemInfoJson`, the entry of an item in the index, /repo/src/vpx/expanded/gameitems.rs:17-32 -/
structure GameItemInfo where
  file_name : Str
  is_locked : Option Bool
  editor_layer : Option UInt32
  editor_layer_name : Option Str
  editor_layer_visibility : Option Bool
  deriving DecidableEq, Repr

/-- the fields, /repo/src/vpx/expanded/gameitems.rs:20-32 -/
def GameItemInfo.jsonFields : List (JField GameItemInfo) :=
  [.req [key!"file_name"] jStr (·.file_name) fun v s => { s with file_name := v },
   .optSkip [key!"is_locked"] jBool (·.is_locked) fun v s => { s with is_locked := v },
   .optSkip [key!"editor_layer"] jU32 (·.editor_layer) fun v s => { s with editor_layer := v },
   .optSkip [key!"editor_layer_name"] jStr (·.editor_layer_name) fun v s => { s with editor_layer_name := v },
   .optSkip [key!"editor_layer_visibility"] jBool (·.editor_layer_visibility)
     fun v s => { s with editor_layer_visibility := v }]

/-- `Serialize` and `Deserialize` of `GameItemInfo`, /repo/src/vpx/expanded/gameitems.rs:20-32 -/
def jGameItemInfo : Codec GameItemInfo := jStruct GameItemInfo.jsonFields ⟨[], none, none, none, none⟩

/-- the index entry of an item, /repo/src/vpx/expanded/gameitems.rs:78-86 -/
def GameItemEnum.info (item : GameItemEnum) (file : Str) : GameItemInfo where
  file_name := file
  is_locked := item.is_locked
  editor_layer := item.editor_layer
  editor_layer_name := item.editor_layer_name
  editor_layer_visibility := item.editor_layer_visibility

/-- restoring what is kept in the index, /repo/src/vpx/expanded/gameitems.rs:193-198 -/
def GameItemInfo.restore (i : GameItemInfo) (item : GameItemEnum) : GameItemEnum :=
  (((item.set_locked i.is_locked).set_editor_layer i.editor_layer).set_editor_layer_name
    i.editor_layer_name).set_editor_layer_visibility i.editor_layer_visibility

/-- `read_json(path)`: the parsed value, or the error of the parser, /repo/src/vpx/expanded/util.rs:22-50 -/
def readJson {α : Type} (T : JsonText) (c : Codec α) (bs : Bytes) : Res α :=
  match T.parse bs with
  | none => .error .io
  | some j => c.ofJ j

/-- `serde_json::to_vec_pretty`, `to_writer_pretty` (used in /repo/src/vpx/expanded/gameitems.rs:102) -/
def writeJson {α : Type} (T : JsonText) (c : Codec α) (a : α) : Bytes := T.print (c.toJ a)

/-- `Serialize` and `Deserialize` of `GameItem`, /repo/src/vpx/gameitem.rs:46-69 -/
def jGameItem : Codec GameItemEnum := ⟨GameItemEnum.toJ, GameItemEnum.ofJ⟩

end Vpin
