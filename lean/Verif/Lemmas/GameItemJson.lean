import Verif.Model.GameItemJson
import Verif.Spec.GameItemJson
import Verif.Lemmas.ItemJson
/-! Helper lemmas: JSON forms of game items of any kind. Generated by tools/gen_json.py. -/
namespace Vpin

theorem latin1_toNat : ∀ n : Fin 256, (Char.ofNat n.val).toNat = n.val := by decide +kernel

theorem tagText_back (t : Nat) (h : t < 2 ^ 32) : tagOfText (tagText t) = .ok t := by
  have hc : ∀ i, (Char.ofNat (byteAt t i).toNat).toNat = t / 256 ^ i % 256 := by
    intro i
    have hb : (byteAt t i).toNat = t / 256 ^ i % 256 := by unfold byteAt; simp
    rw [hb]
    exact latin1_toNat ⟨_, Nat.mod_lt _ (by decide)⟩
  unfold tagText
  show tagOfText [_, _, _, _] = _
  unfold tagOfText
  dsimp only
  rw [hc 0, hc 1, hc 2, hc 3, if_pos (by omega)]
  have : t / 256 ^ 0 % 256 + 256 * (t / 256 ^ 1 % 256 + 256 * (t / 256 ^ 2 % 256 + 256 * (t / 256 ^ 3 % 256))) = t := by
    omega
  rw [this]

theorem jGenericField_ok {keeps : F32 → Prop} : CodecOK keeps jGenericField (fun f => f.1 < 2 ^ 32) where
  back f h := by
    unfold jGenericField
    dsimp only
    rw [tagText_back _ h]
    dsimp only
    rw [(jVec_ok (keeps := keeps) jU8_ok).back f.2 fun _ _ => trivial]
    rfl
  valid f h := .arr _ (by
    intro j hj
    rcases List.mem_cons.mp hj with rfl | hj
    · exact .str _
    · rw [List.mem_singleton.mp hj]
      exact (jVec_ok jU8_ok).valid _ fun _ _ => trivial)
  notNull f _ e := by cases e

theorem jGeneric_ok {keeps : F32 → Prop} : CodecOK keeps jGeneric Generic.JsonOk :=
  jStruct_ok (ps := fun s => [_, _]) (by decide +kernel)
    (fun s h => .cons (req_ok jStr_ok trivial) (.cons (req_ok (jVec_ok jGenericField_ok) h) .nil)) fun _ => rfl

theorem ofJ_wall (j : J) : GameItemEnum.ofJ (.obj [(key!"Wall", j)]) = GameItemEnum.wall <$> jWall.ofJ j := rfl
theorem ofJ_flipper (j : J) : GameItemEnum.ofJ (.obj [(key!"Flipper", j)]) = GameItemEnum.flipper <$> jFlipper.ofJ j := rfl
theorem ofJ_timer (j : J) : GameItemEnum.ofJ (.obj [(key!"Timer", j)]) = GameItemEnum.timer <$> jTimer.ofJ j := rfl
theorem ofJ_plunger (j : J) : GameItemEnum.ofJ (.obj [(key!"Plunger", j)]) = GameItemEnum.plunger <$> jPlunger.ofJ j := rfl
theorem ofJ_textBox (j : J) : GameItemEnum.ofJ (.obj [(key!"TextBox", j)]) = GameItemEnum.textBox <$> jTextBox.ofJ j := rfl
theorem ofJ_bumper (j : J) : GameItemEnum.ofJ (.obj [(key!"Bumper", j)]) = GameItemEnum.bumper <$> jBumper.ofJ j := rfl
theorem ofJ_trigger (j : J) : GameItemEnum.ofJ (.obj [(key!"Trigger", j)]) = GameItemEnum.trigger <$> jTrigger.ofJ j := rfl
theorem ofJ_light (j : J) : GameItemEnum.ofJ (.obj [(key!"Light", j)]) = GameItemEnum.light <$> jLight.ofJ j := rfl
theorem ofJ_kicker (j : J) : GameItemEnum.ofJ (.obj [(key!"Kicker", j)]) = GameItemEnum.kicker <$> jKicker.ofJ j := rfl
theorem ofJ_decal (j : J) : GameItemEnum.ofJ (.obj [(key!"Decal", j)]) = GameItemEnum.decal <$> jDecal.ofJ j := rfl
theorem ofJ_gate (j : J) : GameItemEnum.ofJ (.obj [(key!"Gate", j)]) = GameItemEnum.gate <$> jGate.ofJ j := rfl
theorem ofJ_spinner (j : J) : GameItemEnum.ofJ (.obj [(key!"Spinner", j)]) = GameItemEnum.spinner <$> jSpinner.ofJ j := rfl
theorem ofJ_ramp (j : J) : GameItemEnum.ofJ (.obj [(key!"Ramp", j)]) = GameItemEnum.ramp <$> jRamp.ofJ j := rfl
theorem ofJ_reel (j : J) : GameItemEnum.ofJ (.obj [(key!"Reel", j)]) = GameItemEnum.reel <$> jReel.ofJ j := rfl
theorem ofJ_lightSequencer (j : J) : GameItemEnum.ofJ (.obj [(key!"LightSequencer", j)]) = GameItemEnum.lightSequencer <$> jLightSequencer.ofJ j := rfl
theorem ofJ_primitive (j : J) : GameItemEnum.ofJ (.obj [(key!"Primitive", j)]) = GameItemEnum.primitive <$> jPrimitive.ofJ j := rfl
theorem ofJ_flasher (j : J) : GameItemEnum.ofJ (.obj [(key!"Flasher", j)]) = GameItemEnum.flasher <$> jFlasher.ofJ j := rfl
theorem ofJ_rubber (j : J) : GameItemEnum.ofJ (.obj [(key!"Rubber", j)]) = GameItemEnum.rubber <$> jRubber.ofJ j := rfl
theorem ofJ_hitTarget (j : J) : GameItemEnum.ofJ (.obj [(key!"HitTarget", j)]) = GameItemEnum.hitTarget <$> jHitTarget.ofJ j := rfl
theorem ofJ_ball (j : J) : GameItemEnum.ofJ (.obj [(key!"Ball", j)]) = GameItemEnum.ball <$> jBall.ofJ j := rfl
theorem ofJ_partGroup (j : J) : GameItemEnum.ofJ (.obj [(key!"PartGroup", j)]) = GameItemEnum.partGroup <$> jPartGroup.ofJ j := rfl
theorem ofJ_generic (j : J) : GameItemEnum.ofJ (.obj [(key!"Generic", j)]) = genericOfJ j := rfl

theorem jsonBack_wall {keeps : F32 → Prop} (x : Wall) (h : x.JsonOk keeps) :
    GameItemEnum.ofJ (GameItemEnum.toJ (.wall x)) = .ok (GameItemEnum.jsonPart (.wall x)) :=
  (ofJ_wall _).trans (by rw [Wall.json_back (keeps := keeps) h]; rfl)

theorem jsonBack_flipper {keeps : F32 → Prop} (x : Flipper) (h : x.JsonOk keeps) :
    GameItemEnum.ofJ (GameItemEnum.toJ (.flipper x)) = .ok (GameItemEnum.jsonPart (.flipper x)) :=
  (ofJ_flipper _).trans (by rw [Flipper.json_back (keeps := keeps) h]; rfl)

theorem jsonBack_timer {keeps : F32 → Prop} (x : Timer) (h : x.JsonOk keeps) :
    GameItemEnum.ofJ (GameItemEnum.toJ (.timer x)) = .ok (GameItemEnum.jsonPart (.timer x)) :=
  (ofJ_timer _).trans (by rw [Timer.json_back (keeps := keeps) h]; rfl)

theorem jsonBack_plunger {keeps : F32 → Prop} (x : Plunger) (h : x.JsonOk keeps) :
    GameItemEnum.ofJ (GameItemEnum.toJ (.plunger x)) = .ok (GameItemEnum.jsonPart (.plunger x)) :=
  (ofJ_plunger _).trans (by rw [Plunger.json_back (keeps := keeps) h]; rfl)

theorem jsonBack_textBox {keeps : F32 → Prop} (x : TextBox) (h : x.JsonOk keeps) :
    GameItemEnum.ofJ (GameItemEnum.toJ (.textBox x)) = .ok (GameItemEnum.jsonPart (.textBox x)) :=
  (ofJ_textBox _).trans (by rw [TextBox.json_back (keeps := keeps) h]; rfl)

theorem jsonBack_bumper {keeps : F32 → Prop} (x : Bumper) (h : x.JsonOk keeps) :
    GameItemEnum.ofJ (GameItemEnum.toJ (.bumper x)) = .ok (GameItemEnum.jsonPart (.bumper x)) :=
  (ofJ_bumper _).trans (by rw [Bumper.json_back (keeps := keeps) h]; rfl)

theorem jsonBack_trigger {keeps : F32 → Prop} (x : Trigger) (h : x.JsonOk keeps) :
    GameItemEnum.ofJ (GameItemEnum.toJ (.trigger x)) = .ok (GameItemEnum.jsonPart (.trigger x)) :=
  (ofJ_trigger _).trans (by rw [Trigger.json_back (keeps := keeps) h]; rfl)

theorem jsonBack_light {keeps : F32 → Prop} (x : Light) (h : x.JsonOk keeps) :
    GameItemEnum.ofJ (GameItemEnum.toJ (.light x)) = .ok (GameItemEnum.jsonPart (.light x)) :=
  (ofJ_light _).trans (by rw [Light.json_back (keeps := keeps) h]; rfl)

theorem jsonBack_kicker {keeps : F32 → Prop} (x : Kicker) (h : x.JsonOk keeps) :
    GameItemEnum.ofJ (GameItemEnum.toJ (.kicker x)) = .ok (GameItemEnum.jsonPart (.kicker x)) :=
  (ofJ_kicker _).trans (by rw [Kicker.json_back (keeps := keeps) h]; rfl)

theorem jsonBack_decal {keeps : F32 → Prop} (x : Decal) (h : x.JsonOk keeps) :
    GameItemEnum.ofJ (GameItemEnum.toJ (.decal x)) = .ok (GameItemEnum.jsonPart (.decal x)) :=
  (ofJ_decal _).trans (by rw [Decal.json_back (keeps := keeps) h]; rfl)

theorem jsonBack_gate {keeps : F32 → Prop} (x : Gate) (h : x.JsonOk keeps) :
    GameItemEnum.ofJ (GameItemEnum.toJ (.gate x)) = .ok (GameItemEnum.jsonPart (.gate x)) :=
  (ofJ_gate _).trans (by rw [Gate.json_back (keeps := keeps) h]; rfl)

theorem jsonBack_spinner {keeps : F32 → Prop} (x : Spinner) (h : x.JsonOk keeps) :
    GameItemEnum.ofJ (GameItemEnum.toJ (.spinner x)) = .ok (GameItemEnum.jsonPart (.spinner x)) :=
  (ofJ_spinner _).trans (by rw [Spinner.json_back (keeps := keeps) h]; rfl)

theorem jsonBack_ramp {keeps : F32 → Prop} (x : Ramp) (h : x.JsonOk keeps) :
    GameItemEnum.ofJ (GameItemEnum.toJ (.ramp x)) = .ok (GameItemEnum.jsonPart (.ramp x)) :=
  (ofJ_ramp _).trans (by rw [Ramp.json_back (keeps := keeps) h]; rfl)

theorem jsonBack_reel {keeps : F32 → Prop} (x : Reel) (h : x.JsonOk keeps) :
    GameItemEnum.ofJ (GameItemEnum.toJ (.reel x)) = .ok (GameItemEnum.jsonPart (.reel x)) :=
  (ofJ_reel _).trans (by rw [Reel.json_back (keeps := keeps) h]; rfl)

theorem jsonBack_lightSequencer {keeps : F32 → Prop} (x : LightSequencer) (h : x.JsonOk keeps) :
    GameItemEnum.ofJ (GameItemEnum.toJ (.lightSequencer x)) = .ok (GameItemEnum.jsonPart (.lightSequencer x)) :=
  (ofJ_lightSequencer _).trans (by rw [LightSequencer.json_back (keeps := keeps) h]; rfl)

theorem jsonBack_primitive {keeps : F32 → Prop} (x : Primitive) (h : x.JsonOk keeps) :
    GameItemEnum.ofJ (GameItemEnum.toJ (.primitive x)) = .ok (GameItemEnum.jsonPart (.primitive x)) :=
  (ofJ_primitive _).trans (by rw [Primitive.json_back (keeps := keeps) h]; rfl)

theorem jsonBack_flasher {keeps : F32 → Prop} (x : Flasher) (h : x.JsonOk keeps) :
    GameItemEnum.ofJ (GameItemEnum.toJ (.flasher x)) = .ok (GameItemEnum.jsonPart (.flasher x)) :=
  (ofJ_flasher _).trans (by rw [Flasher.json_back (keeps := keeps) h]; rfl)

theorem jsonBack_rubber {keeps : F32 → Prop} (x : Rubber) (h : x.JsonOk keeps) :
    GameItemEnum.ofJ (GameItemEnum.toJ (.rubber x)) = .ok (GameItemEnum.jsonPart (.rubber x)) :=
  (ofJ_rubber _).trans (by rw [Rubber.json_back (keeps := keeps) h]; rfl)

theorem jsonBack_hitTarget {keeps : F32 → Prop} (x : HitTarget) (h : x.JsonOk keeps) :
    GameItemEnum.ofJ (GameItemEnum.toJ (.hitTarget x)) = .ok (GameItemEnum.jsonPart (.hitTarget x)) :=
  (ofJ_hitTarget _).trans (by rw [HitTarget.json_back (keeps := keeps) h]; rfl)

theorem jsonBack_ball {keeps : F32 → Prop} (x : Ball) (h : x.JsonOk keeps) :
    GameItemEnum.ofJ (GameItemEnum.toJ (.ball x)) = .ok (GameItemEnum.jsonPart (.ball x)) :=
  (ofJ_ball _).trans (by rw [Ball.json_back (keeps := keeps) h]; rfl)

theorem jsonBack_partGroup {keeps : F32 → Prop} (x : PartGroup) (h : x.JsonOk keeps) :
    GameItemEnum.ofJ (GameItemEnum.toJ (.partGroup x)) = .ok (GameItemEnum.jsonPart (.partGroup x)) :=
  (ofJ_partGroup _).trans (by rw [PartGroup.json_back (keeps := keeps) h]; rfl)

theorem genericOfJ_ok {a b : J} {t : UInt32} {x : Generic} (ha : jU32.ofJ a = .ok t) (hb : jGeneric.ofJ b = .ok x) :
    genericOfJ (.arr [a, b]) = .ok (.generic t x) := by
  unfold genericOfJ
  dsimp only
  rw [ha, hb]
  rfl

theorem jsonBack_generic {keeps : F32 → Prop} (t : UInt32) (x : Generic) (h : x.JsonOk) :
    GameItemEnum.ofJ (GameItemEnum.toJ (.generic t x)) = .ok (GameItemEnum.jsonPart (.generic t x)) :=
  (ofJ_generic _).trans (genericOfJ_ok ((jU32_ok (keeps := keeps)).back t trivial) ((jGeneric_ok (keeps := keeps)).back x h))

theorem GameItemEnum.json_back {keeps : F32 → Prop} {g : GameItemEnum} (h : g.JsonOk keeps) :
    GameItemEnum.ofJ g.toJ = .ok g.jsonPart := by
  cases g with
  | wall x => exact jsonBack_wall x h
  | flipper x => exact jsonBack_flipper x h
  | timer x => exact jsonBack_timer x h
  | plunger x => exact jsonBack_plunger x h
  | textBox x => exact jsonBack_textBox x h
  | bumper x => exact jsonBack_bumper x h
  | trigger x => exact jsonBack_trigger x h
  | light x => exact jsonBack_light x h
  | kicker x => exact jsonBack_kicker x h
  | decal x => exact jsonBack_decal x h
  | gate x => exact jsonBack_gate x h
  | spinner x => exact jsonBack_spinner x h
  | ramp x => exact jsonBack_ramp x h
  | reel x => exact jsonBack_reel x h
  | lightSequencer x => exact jsonBack_lightSequencer x h
  | primitive x => exact jsonBack_primitive x h
  | flasher x => exact jsonBack_flasher x h
  | rubber x => exact jsonBack_rubber x h
  | hitTarget x => exact jsonBack_hitTarget x h
  | ball x => exact jsonBack_ball x h
  | partGroup x => exact jsonBack_partGroup x h
  | generic t x => exact jsonBack_generic (keeps := keeps) t x h

theorem GameItemEnum.json_valid {keeps : F32 → Prop} : ∀ {g : GameItemEnum}, g.JsonOk keeps → g.toJ.Valid keeps
  | .wall x, h => .obj _ (by simp) (by intro m hm; rw [List.mem_singleton.mp hm]; exact Wall.json_valid (s := x) h)
  | .flipper x, h => .obj _ (by simp) (by intro m hm; rw [List.mem_singleton.mp hm]; exact Flipper.json_valid (s := x) h)
  | .timer x, h => .obj _ (by simp) (by intro m hm; rw [List.mem_singleton.mp hm]; exact Timer.json_valid (s := x) h)
  | .plunger x, h => .obj _ (by simp) (by intro m hm; rw [List.mem_singleton.mp hm]; exact Plunger.json_valid (s := x) h)
  | .textBox x, h => .obj _ (by simp) (by intro m hm; rw [List.mem_singleton.mp hm]; exact TextBox.json_valid (s := x) h)
  | .bumper x, h => .obj _ (by simp) (by intro m hm; rw [List.mem_singleton.mp hm]; exact Bumper.json_valid (s := x) h)
  | .trigger x, h => .obj _ (by simp) (by intro m hm; rw [List.mem_singleton.mp hm]; exact Trigger.json_valid (s := x) h)
  | .light x, h => .obj _ (by simp) (by intro m hm; rw [List.mem_singleton.mp hm]; exact Light.json_valid (s := x) h)
  | .kicker x, h => .obj _ (by simp) (by intro m hm; rw [List.mem_singleton.mp hm]; exact Kicker.json_valid (s := x) h)
  | .decal x, h => .obj _ (by simp) (by intro m hm; rw [List.mem_singleton.mp hm]; exact Decal.json_valid (s := x) h)
  | .gate x, h => .obj _ (by simp) (by intro m hm; rw [List.mem_singleton.mp hm]; exact Gate.json_valid (s := x) h)
  | .spinner x, h => .obj _ (by simp) (by intro m hm; rw [List.mem_singleton.mp hm]; exact Spinner.json_valid (s := x) h)
  | .ramp x, h => .obj _ (by simp) (by intro m hm; rw [List.mem_singleton.mp hm]; exact Ramp.json_valid (s := x) h)
  | .reel x, h => .obj _ (by simp) (by intro m hm; rw [List.mem_singleton.mp hm]; exact Reel.json_valid (s := x) h)
  | .lightSequencer x, h => .obj _ (by simp) (by intro m hm; rw [List.mem_singleton.mp hm]; exact LightSequencer.json_valid (s := x) h)
  | .primitive x, h => .obj _ (by simp) (by intro m hm; rw [List.mem_singleton.mp hm]; exact Primitive.json_valid (s := x) h)
  | .flasher x, h => .obj _ (by simp) (by intro m hm; rw [List.mem_singleton.mp hm]; exact Flasher.json_valid (s := x) h)
  | .rubber x, h => .obj _ (by simp) (by intro m hm; rw [List.mem_singleton.mp hm]; exact Rubber.json_valid (s := x) h)
  | .hitTarget x, h => .obj _ (by simp) (by intro m hm; rw [List.mem_singleton.mp hm]; exact HitTarget.json_valid (s := x) h)
  | .ball x, h => .obj _ (by simp) (by intro m hm; rw [List.mem_singleton.mp hm]; exact Ball.json_valid (s := x) h)
  | .partGroup x, h => .obj _ (by simp) (by intro m hm; rw [List.mem_singleton.mp hm]; exact PartGroup.json_valid (s := x) h)
  | .generic t x, h => .obj _ (by simp) (by
    intro m hm; rw [List.mem_singleton.mp hm]
    refine .arr _ fun j hj => ?_
    rcases List.mem_cons.mp hj with rfl | hj
    · exact jU32_ok.valid t trivial
    · rw [List.mem_singleton.mp hj]; exact jGeneric_ok.valid x h)

theorem jGameItemInfo_ok {keeps : F32 → Prop} : CodecOK keeps jGameItemInfo AnyP :=
  jStruct_ok (ps := fun s => [_, _, _, _, _]) (by decide +kernel)
    (fun s _ => .cons (req_ok jStr_ok trivial) (.cons (optSkip_ok jBool_ok fun _ _ => trivial)
      (.cons (optSkip_ok jU32_ok fun _ _ => trivial) (.cons (optSkip_ok jStr_ok fun _ _ => trivial)
        (.cons (optSkip_ok jBool_ok fun _ _ => trivial) .nil))))) fun _ => rfl

theorem JsonText.parse_print_self (T : JsonText) {j : J} (h : j.Valid T.keeps) : T.parse (T.print j) = some j := by
  have := T.parse_print j 0 h
  simpa using this

theorem readJson_writeJson (T : JsonText) {α : Type} {c : Codec α} {P : α → Prop} (hc : CodecOK T.keeps c P) {a : α}
    (h : P a) : readJson T c (writeJson T c a) = .ok a := by
  unfold readJson writeJson
  rw [T.parse_print_self (hc.valid a h)]
  exact hc.back a h

theorem readJson_item (T : JsonText) {g : GameItemEnum} (h : g.JsonOk T.keeps) :
    readJson T jGameItem (writeJson T jGameItem g) = .ok g.jsonPart := by
  unfold readJson writeJson
  rw [T.parse_print_self (j := jGameItem.toJ g) (GameItemEnum.json_valid h)]
  exact GameItemEnum.json_back h

theorem restore_info (g : GameItemEnum) (file : Str) : (g.info file).restore g.jsonPart = g.withoutMesh := by
  cases g <;> rfl

end Vpin
