import Verif.Spec.ItemJson
/-
Which items the expanded form can hold, and what of an item is in its JSON file. Generated by tools/gen_json.py.
-/
namespace Vpin

/-- record names of items of unknown kinds have four bytes -/
def Generic.JsonOk (s : Generic) : Prop := ∀ f ∈ s.fields, f.1 < 2 ^ 32

/-- all numbers in plain fields are finite and kept by the JSON text -/
def GameItemEnum.JsonOk (keeps : F32 → Prop) : GameItemEnum → Prop
  | .wall x => x.JsonOk keeps
  | .flipper x => x.JsonOk keeps
  | .timer x => x.JsonOk keeps
  | .plunger x => x.JsonOk keeps
  | .textBox x => x.JsonOk keeps
  | .bumper x => x.JsonOk keeps
  | .trigger x => x.JsonOk keeps
  | .light x => x.JsonOk keeps
  | .kicker x => x.JsonOk keeps
  | .decal x => x.JsonOk keeps
  | .gate x => x.JsonOk keeps
  | .spinner x => x.JsonOk keeps
  | .ramp x => x.JsonOk keeps
  | .reel x => x.JsonOk keeps
  | .lightSequencer x => x.JsonOk keeps
  | .primitive x => x.JsonOk keeps
  | .flasher x => x.JsonOk keeps
  | .rubber x => x.JsonOk keeps
  | .hitTarget x => x.JsonOk keeps
  | .ball x => x.JsonOk keeps
  | .partGroup x => x.JsonOk keeps
  | .generic _ x => x.JsonOk

/-- the item as it is in its JSON file: without lock, layer and mesh -/
def GameItemEnum.jsonPart : GameItemEnum → GameItemEnum
  | .wall x => .wall x.jsonPart
  | .flipper x => .flipper x.jsonPart
  | .timer x => .timer x.jsonPart
  | .plunger x => .plunger x.jsonPart
  | .textBox x => .textBox x.jsonPart
  | .bumper x => .bumper x.jsonPart
  | .trigger x => .trigger x.jsonPart
  | .light x => .light x.jsonPart
  | .kicker x => .kicker x.jsonPart
  | .decal x => .decal x.jsonPart
  | .gate x => .gate x.jsonPart
  | .spinner x => .spinner x.jsonPart
  | .ramp x => .ramp x.jsonPart
  | .reel x => .reel x.jsonPart
  | .lightSequencer x => .lightSequencer x.jsonPart
  | .primitive x => .primitive x.jsonPart
  | .flasher x => .flasher x.jsonPart
  | .rubber x => .rubber x.jsonPart
  | .hitTarget x => .hitTarget x.jsonPart
  | .ball x => .ball x.jsonPart
  | .partGroup x => .partGroup x.jsonPart
  | .generic t x => .generic t x

/-- the item without the mesh and the animation frames of a primitive, which have their own files -/
def GameItemEnum.withoutMesh : GameItemEnum → GameItemEnum
  | .primitive x => .primitive { x with
      num_vertices := none, compressed_vertices_len := none, compressed_vertices_data := none,
      num_indices := none, compressed_indices_len := none, compressed_indices_data := none,
      compressed_animation_vertices_len := none, compressed_animation_vertices_data := none }
  | g => g

end Vpin
