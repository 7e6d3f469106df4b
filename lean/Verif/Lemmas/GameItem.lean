import Verif.Lemmas.Items.Wall
import Verif.Lemmas.Items.Flipper
import Verif.Lemmas.Items.Timer
import Verif.Lemmas.Items.Plunger
import Verif.Lemmas.Items.TextBox
import Verif.Lemmas.Items.Bumper
import Verif.Lemmas.Items.Trigger
import Verif.Lemmas.Items.Light
import Verif.Lemmas.Items.Kicker
import Verif.Lemmas.Items.Decal
import Verif.Lemmas.Items.Gate
import Verif.Lemmas.Items.Spinner
import Verif.Lemmas.Items.Ramp
import Verif.Lemmas.Items.Reel
import Verif.Lemmas.Items.LightSequencer
import Verif.Lemmas.Items.Primitive
import Verif.Lemmas.Items.Flasher
import Verif.Lemmas.Items.Rubber
import Verif.Lemmas.Items.HitTarget
import Verif.Lemmas.Items.Ball
import Verif.Lemmas.Items.PartGroup
import Verif.Spec.GameItem
import Verif.Lemmas.ItemWrite
/-!
Game items of any kind. Generated by tools/gen_gameitem.py.
-/
namespace Vpin

theorem readKind_wall : GameItemEnum.readKind 0 = GameItemEnum.wall <$> readWith Wall.arms Wall.init := rfl
theorem readKind_flipper : GameItemEnum.readKind 1 = GameItemEnum.flipper <$> readWith Flipper.arms Flipper.init := rfl
theorem readKind_timer : GameItemEnum.readKind 2 = GameItemEnum.timer <$> readWith Timer.arms Timer.init := rfl
theorem readKind_plunger : GameItemEnum.readKind 3 = GameItemEnum.plunger <$> readWith Plunger.arms Plunger.init := rfl
theorem readKind_textBox : GameItemEnum.readKind 4 = GameItemEnum.textBox <$> readWith TextBox.arms TextBox.init := rfl
theorem readKind_bumper : GameItemEnum.readKind 5 = GameItemEnum.bumper <$> readWith Bumper.arms Bumper.init := rfl
theorem readKind_trigger : GameItemEnum.readKind 6 = GameItemEnum.trigger <$> readWith Trigger.arms Trigger.init := rfl
theorem readKind_light : GameItemEnum.readKind 7 = GameItemEnum.light <$> readWith Light.arms Light.init := rfl
theorem readKind_kicker : GameItemEnum.readKind 8 = GameItemEnum.kicker <$> readWith Kicker.arms Kicker.init := rfl
theorem readKind_decal : GameItemEnum.readKind 9 = GameItemEnum.decal <$> readWith Decal.arms Decal.init := rfl
theorem readKind_gate : GameItemEnum.readKind 10 = GameItemEnum.gate <$> readWith Gate.arms Gate.init := rfl
theorem readKind_spinner : GameItemEnum.readKind 11 = GameItemEnum.spinner <$> readWith Spinner.arms Spinner.init := rfl
theorem readKind_ramp : GameItemEnum.readKind 12 = GameItemEnum.ramp <$> readWith Ramp.arms Ramp.init := rfl
theorem readKind_reel : GameItemEnum.readKind 17 = GameItemEnum.reel <$> readWith Reel.arms Reel.init := rfl
theorem readKind_lightSequencer : GameItemEnum.readKind 18 = GameItemEnum.lightSequencer <$> readWith LightSequencer.arms LightSequencer.init := rfl
theorem readKind_primitive : GameItemEnum.readKind 19 = GameItemEnum.primitive <$> readWith Primitive.arms Primitive.init := rfl
theorem readKind_flasher : GameItemEnum.readKind 20 = GameItemEnum.flasher <$> readWith Flasher.arms Flasher.init := rfl
theorem readKind_rubber : GameItemEnum.readKind 21 = GameItemEnum.rubber <$> readWith Rubber.arms Rubber.init := rfl
theorem readKind_hitTarget : GameItemEnum.readKind 22 = GameItemEnum.hitTarget <$> readWith HitTarget.arms HitTarget.init := rfl
theorem readKind_ball : GameItemEnum.readKind 23 = GameItemEnum.ball <$> readWith Ball.arms Ball.init := rfl
theorem readKind_partGroup : GameItemEnum.readKind 24 = GameItemEnum.partGroup <$> readWith PartGroup.arms PartGroup.init := rfl

theorem gameitem_roundtrip (g : GameItemEnum) (h : g.WF) :
    ∃ bs, g.write = .ok bs ∧ GameItemEnum.read bs = .ok g := by
  cases g with
  | wall x => exact (Wall.reads h).typed readKind_wall
  | flipper x => exact (Flipper.reads h).typed readKind_flipper
  | timer x => exact (Timer.reads h).typed readKind_timer
  | plunger x => exact (Plunger.reads h).typed readKind_plunger
  | textBox x => exact (TextBox.reads h).typed readKind_textBox
  | bumper x => exact (Bumper.reads h).typed readKind_bumper
  | trigger x => exact (Trigger.reads h).typed readKind_trigger
  | light x => exact (Light.reads h).typed readKind_light
  | kicker x => exact (Kicker.reads h).typed readKind_kicker
  | decal x => exact (Decal.reads h).typed readKind_decal
  | gate x => exact (Gate.reads h).typed readKind_gate
  | spinner x => exact (Spinner.reads h).typed readKind_spinner
  | ramp x => exact (Ramp.reads h).typed readKind_ramp
  | reel x => exact (Reel.reads h).typed readKind_reel
  | lightSequencer x => exact (LightSequencer.reads h).typed readKind_lightSequencer
  | primitive x => exact (Primitive.reads h).typed readKind_primitive
  | flasher x => exact (Flasher.reads h).typed readKind_flasher
  | rubber x => exact (Rubber.reads h).typed readKind_rubber
  | hitTarget x => exact (HitTarget.reads h).typed readKind_hitTarget
  | ball x => exact (Ball.reads h).typed readKind_ball
  | partGroup x => exact (PartGroup.reads h).typed readKind_partGroup
  | generic _ _ => exact h.elim

/-- what the reader guarantees -/
def GameItemEnum.RInv : GameItemEnum → Prop
  | .wall x => x.WF
  | .flipper x => x.WF
  | .timer x => x.WF
  | .plunger x => x.WF
  | .textBox x => x.WF
  | .bumper x => x.WF
  | .trigger x => x.WF
  | .light x => x.WF
  | .kicker x => x.WF
  | .decal x => x.WF
  | .gate x => x.WF
  | .spinner x => x.WF
  | .ramp x => x.WF
  | .reel x => x.WF
  | .lightSequencer x => x.WF
  | .primitive x => x.RInv
  | .flasher x => x.WF
  | .rubber x => x.WF
  | .hitTarget x => x.WF
  | .ball x => x.WF
  | .partGroup x => x.WF
  | .generic _ _ => True

theorem readKind_inv (t : UInt32) : GP (GameItemEnum.readKind t) GameItemEnum.RInv := by
  intro r g r' hb h
  unfold GameItemEnum.readKind at h
  rcases R.ite_inv h with ⟨ht, h⟩ | ⟨_, h⟩
  · obtain ⟨v, r1, h1, rfl⟩ := R.map_inv h
    exact readWith_gp Wall.arms_inv Wall.init_wf r v r1 hb h1
  rcases R.ite_inv h with ⟨ht, h⟩ | ⟨_, h⟩
  · obtain ⟨v, r1, h1, rfl⟩ := R.map_inv h
    exact readWith_gp Flipper.arms_inv Flipper.init_wf r v r1 hb h1
  rcases R.ite_inv h with ⟨ht, h⟩ | ⟨_, h⟩
  · obtain ⟨v, r1, h1, rfl⟩ := R.map_inv h
    exact readWith_gp Timer.arms_inv Timer.init_wf r v r1 hb h1
  rcases R.ite_inv h with ⟨ht, h⟩ | ⟨_, h⟩
  · obtain ⟨v, r1, h1, rfl⟩ := R.map_inv h
    exact readWith_gp Plunger.arms_inv Plunger.init_wf r v r1 hb h1
  rcases R.ite_inv h with ⟨ht, h⟩ | ⟨_, h⟩
  · obtain ⟨v, r1, h1, rfl⟩ := R.map_inv h
    exact readWith_gp TextBox.arms_inv TextBox.init_wf r v r1 hb h1
  rcases R.ite_inv h with ⟨ht, h⟩ | ⟨_, h⟩
  · obtain ⟨v, r1, h1, rfl⟩ := R.map_inv h
    exact readWith_gp Bumper.arms_inv Bumper.init_wf r v r1 hb h1
  rcases R.ite_inv h with ⟨ht, h⟩ | ⟨_, h⟩
  · obtain ⟨v, r1, h1, rfl⟩ := R.map_inv h
    exact readWith_gp Trigger.arms_inv Trigger.init_wf r v r1 hb h1
  rcases R.ite_inv h with ⟨ht, h⟩ | ⟨_, h⟩
  · obtain ⟨v, r1, h1, rfl⟩ := R.map_inv h
    exact readWith_gp Light.arms_inv Light.init_wf r v r1 hb h1
  rcases R.ite_inv h with ⟨ht, h⟩ | ⟨_, h⟩
  · obtain ⟨v, r1, h1, rfl⟩ := R.map_inv h
    exact readWith_gp Kicker.arms_inv Kicker.init_wf r v r1 hb h1
  rcases R.ite_inv h with ⟨ht, h⟩ | ⟨_, h⟩
  · obtain ⟨v, r1, h1, rfl⟩ := R.map_inv h
    exact readWith_gp Decal.arms_inv Decal.init_wf r v r1 hb h1
  rcases R.ite_inv h with ⟨ht, h⟩ | ⟨_, h⟩
  · obtain ⟨v, r1, h1, rfl⟩ := R.map_inv h
    exact readWith_gp Gate.arms_inv Gate.init_wf r v r1 hb h1
  rcases R.ite_inv h with ⟨ht, h⟩ | ⟨_, h⟩
  · obtain ⟨v, r1, h1, rfl⟩ := R.map_inv h
    exact readWith_gp Spinner.arms_inv Spinner.init_wf r v r1 hb h1
  rcases R.ite_inv h with ⟨ht, h⟩ | ⟨_, h⟩
  · obtain ⟨v, r1, h1, rfl⟩ := R.map_inv h
    exact readWith_gp Ramp.arms_inv Ramp.init_wf r v r1 hb h1
  rcases R.ite_inv h with ⟨ht, h⟩ | ⟨_, h⟩
  · cases h
  rcases R.ite_inv h with ⟨ht, h⟩ | ⟨_, h⟩
  · cases h
  rcases R.ite_inv h with ⟨ht, h⟩ | ⟨_, h⟩
  · cases h
  rcases R.ite_inv h with ⟨ht, h⟩ | ⟨_, h⟩
  · cases h
  rcases R.ite_inv h with ⟨ht, h⟩ | ⟨_, h⟩
  · obtain ⟨v, r1, h1, rfl⟩ := R.map_inv h
    exact readWith_gp Reel.arms_inv Reel.init_wf r v r1 hb h1
  rcases R.ite_inv h with ⟨ht, h⟩ | ⟨_, h⟩
  · obtain ⟨v, r1, h1, rfl⟩ := R.map_inv h
    exact readWith_gp LightSequencer.arms_inv LightSequencer.init_wf r v r1 hb h1
  rcases R.ite_inv h with ⟨ht, h⟩ | ⟨_, h⟩
  · obtain ⟨v, r1, h1, rfl⟩ := R.map_inv h
    exact readWith_gp Primitive.arms_inv Primitive.init_wf r v r1 hb h1
  rcases R.ite_inv h with ⟨ht, h⟩ | ⟨_, h⟩
  · obtain ⟨v, r1, h1, rfl⟩ := R.map_inv h
    exact readWith_gp Flasher.arms_inv Flasher.init_wf r v r1 hb h1
  rcases R.ite_inv h with ⟨ht, h⟩ | ⟨_, h⟩
  · obtain ⟨v, r1, h1, rfl⟩ := R.map_inv h
    exact readWith_gp Rubber.arms_inv Rubber.init_wf r v r1 hb h1
  rcases R.ite_inv h with ⟨ht, h⟩ | ⟨_, h⟩
  · obtain ⟨v, r1, h1, rfl⟩ := R.map_inv h
    exact readWith_gp HitTarget.arms_inv HitTarget.init_wf r v r1 hb h1
  rcases R.ite_inv h with ⟨ht, h⟩ | ⟨_, h⟩
  · obtain ⟨v, r1, h1, rfl⟩ := R.map_inv h
    exact readWith_gp Ball.arms_inv Ball.init_wf r v r1 hb h1
  rcases R.ite_inv h with ⟨ht, h⟩ | ⟨_, h⟩
  · obtain ⟨v, r1, h1, rfl⟩ := R.map_inv h
    exact readWith_gp PartGroup.arms_inv PartGroup.init_wf r v r1 hb h1
  · obtain ⟨v, _, _, rfl⟩ := R.map_inv h
    trivial

theorem read_inv {bs : Bytes} {g : GameItemEnum} (h : GameItemEnum.read bs = .ok g) : g.RInv := by
  unfold GameItemEnum.read at h
  split at h
  · next v r' h' =>
    cases h
    obtain ⟨t, r1, h1, h2⟩ := R.bind_inv h'
    refine readKind_inv t r1 _ r' ?_ h2
    rw [getU32N_brr h1]; exact (by decide : 0 + 4 < 2 ^ 32)
  · cases h

theorem readKind_tame (t : UInt32) : Tame (GameItemEnum.readKind t) := by
  unfold GameItemEnum.readKind
  refine Tame.ite (map_tame (readWith_tame Wall.arms_tame _)) ?_
  refine Tame.ite (map_tame (readWith_tame Flipper.arms_tame _)) ?_
  refine Tame.ite (map_tame (readWith_tame Timer.arms_tame _)) ?_
  refine Tame.ite (map_tame (readWith_tame Plunger.arms_tame _)) ?_
  refine Tame.ite (map_tame (readWith_tame TextBox.arms_tame _)) ?_
  refine Tame.ite (map_tame (readWith_tame Bumper.arms_tame _)) ?_
  refine Tame.ite (map_tame (readWith_tame Trigger.arms_tame _)) ?_
  refine Tame.ite (map_tame (readWith_tame Light.arms_tame _)) ?_
  refine Tame.ite (map_tame (readWith_tame Kicker.arms_tame _)) ?_
  refine Tame.ite (map_tame (readWith_tame Decal.arms_tame _)) ?_
  refine Tame.ite (map_tame (readWith_tame Gate.arms_tame _)) ?_
  refine Tame.ite (map_tame (readWith_tame Spinner.arms_tame _)) ?_
  refine Tame.ite (map_tame (readWith_tame Ramp.arms_tame _)) ?_
  refine Tame.ite Tame.panic ?_
  refine Tame.ite Tame.panic ?_
  refine Tame.ite Tame.panic ?_
  refine Tame.ite Tame.panic ?_
  refine Tame.ite (map_tame (readWith_tame Reel.arms_tame _)) ?_
  refine Tame.ite (map_tame (readWith_tame LightSequencer.arms_tame _)) ?_
  refine Tame.ite (map_tame (readWith_tame Primitive.arms_tame _)) ?_
  refine Tame.ite (map_tame (readWith_tame Flasher.arms_tame _)) ?_
  refine Tame.ite (map_tame (readWith_tame Rubber.arms_tame _)) ?_
  refine Tame.ite (map_tame (readWith_tame HitTarget.arms_tame _)) ?_
  refine Tame.ite (map_tame (readWith_tame Ball.arms_tame _)) ?_
  refine Tame.ite (map_tame (readWith_tame PartGroup.arms_tame _)) ?_
  exact map_tame (readWith_tame Generic.arms_tame _)

theorem readKind_kind {t : UInt32} {r r' : Rd} {g : GameItemEnum}
    (h : GameItemEnum.readKind t r = .ok (g, r')) :
    (∃ k, g.kind = some k ∧ k.number = t) ∨
    ((∃ x, g = .generic t x) ∧ 24 < t.toNat) := by
  unfold GameItemEnum.readKind at h
  rcases R.ite_inv h with ⟨ht, h⟩ | ⟨_, h⟩
  · obtain ⟨v, _, _, rfl⟩ := R.map_inv h
    exact .inl ⟨_, rfl, ht.symm⟩
  rcases R.ite_inv h with ⟨ht, h⟩ | ⟨_, h⟩
  · obtain ⟨v, _, _, rfl⟩ := R.map_inv h
    exact .inl ⟨_, rfl, ht.symm⟩
  rcases R.ite_inv h with ⟨ht, h⟩ | ⟨_, h⟩
  · obtain ⟨v, _, _, rfl⟩ := R.map_inv h
    exact .inl ⟨_, rfl, ht.symm⟩
  rcases R.ite_inv h with ⟨ht, h⟩ | ⟨_, h⟩
  · obtain ⟨v, _, _, rfl⟩ := R.map_inv h
    exact .inl ⟨_, rfl, ht.symm⟩
  rcases R.ite_inv h with ⟨ht, h⟩ | ⟨_, h⟩
  · obtain ⟨v, _, _, rfl⟩ := R.map_inv h
    exact .inl ⟨_, rfl, ht.symm⟩
  rcases R.ite_inv h with ⟨ht, h⟩ | ⟨_, h⟩
  · obtain ⟨v, _, _, rfl⟩ := R.map_inv h
    exact .inl ⟨_, rfl, ht.symm⟩
  rcases R.ite_inv h with ⟨ht, h⟩ | ⟨_, h⟩
  · obtain ⟨v, _, _, rfl⟩ := R.map_inv h
    exact .inl ⟨_, rfl, ht.symm⟩
  rcases R.ite_inv h with ⟨ht, h⟩ | ⟨_, h⟩
  · obtain ⟨v, _, _, rfl⟩ := R.map_inv h
    exact .inl ⟨_, rfl, ht.symm⟩
  rcases R.ite_inv h with ⟨ht, h⟩ | ⟨_, h⟩
  · obtain ⟨v, _, _, rfl⟩ := R.map_inv h
    exact .inl ⟨_, rfl, ht.symm⟩
  rcases R.ite_inv h with ⟨ht, h⟩ | ⟨_, h⟩
  · obtain ⟨v, _, _, rfl⟩ := R.map_inv h
    exact .inl ⟨_, rfl, ht.symm⟩
  rcases R.ite_inv h with ⟨ht, h⟩ | ⟨_, h⟩
  · obtain ⟨v, _, _, rfl⟩ := R.map_inv h
    exact .inl ⟨_, rfl, ht.symm⟩
  rcases R.ite_inv h with ⟨ht, h⟩ | ⟨_, h⟩
  · obtain ⟨v, _, _, rfl⟩ := R.map_inv h
    exact .inl ⟨_, rfl, ht.symm⟩
  rcases R.ite_inv h with ⟨ht, h⟩ | ⟨_, h⟩
  · obtain ⟨v, _, _, rfl⟩ := R.map_inv h
    exact .inl ⟨_, rfl, ht.symm⟩
  rcases R.ite_inv h with ⟨ht, h⟩ | ⟨_, h⟩
  · cases h
  rcases R.ite_inv h with ⟨ht, h⟩ | ⟨_, h⟩
  · cases h
  rcases R.ite_inv h with ⟨ht, h⟩ | ⟨_, h⟩
  · cases h
  rcases R.ite_inv h with ⟨ht, h⟩ | ⟨_, h⟩
  · cases h
  rcases R.ite_inv h with ⟨ht, h⟩ | ⟨_, h⟩
  · obtain ⟨v, _, _, rfl⟩ := R.map_inv h
    exact .inl ⟨_, rfl, ht.symm⟩
  rcases R.ite_inv h with ⟨ht, h⟩ | ⟨_, h⟩
  · obtain ⟨v, _, _, rfl⟩ := R.map_inv h
    exact .inl ⟨_, rfl, ht.symm⟩
  rcases R.ite_inv h with ⟨ht, h⟩ | ⟨_, h⟩
  · obtain ⟨v, _, _, rfl⟩ := R.map_inv h
    exact .inl ⟨_, rfl, ht.symm⟩
  rcases R.ite_inv h with ⟨ht, h⟩ | ⟨_, h⟩
  · obtain ⟨v, _, _, rfl⟩ := R.map_inv h
    exact .inl ⟨_, rfl, ht.symm⟩
  rcases R.ite_inv h with ⟨ht, h⟩ | ⟨_, h⟩
  · obtain ⟨v, _, _, rfl⟩ := R.map_inv h
    exact .inl ⟨_, rfl, ht.symm⟩
  rcases R.ite_inv h with ⟨ht, h⟩ | ⟨_, h⟩
  · obtain ⟨v, _, _, rfl⟩ := R.map_inv h
    exact .inl ⟨_, rfl, ht.symm⟩
  rcases R.ite_inv h with ⟨ht, h⟩ | ⟨_, h⟩
  · obtain ⟨v, _, _, rfl⟩ := R.map_inv h
    exact .inl ⟨_, rfl, ht.symm⟩
  rcases R.ite_inv h with ⟨ht, h⟩ | ⟨_, h⟩
  · obtain ⟨v, _, _, rfl⟩ := R.map_inv h
    exact .inl ⟨_, rfl, ht.symm⟩
  · obtain ⟨v, _, _, rfl⟩ := R.map_inv h
    refine .inr ⟨⟨_, rfl⟩, ?_⟩
    have hne : ∀ n : Nat, n < 2 ^ 32 → ¬ t = UInt32.ofNat n → t.toNat ≠ n := by
      intro n hn hne e
      apply hne
      apply UInt32.toNat_inj.1
      rw [e, UInt32.toNat_ofNat_of_lt' (by simpa [UInt32.size] using hn)]
    have := hne 0 (by decide) (by assumption)
    have := hne 1 (by decide) (by assumption)
    have := hne 2 (by decide) (by assumption)
    have := hne 3 (by decide) (by assumption)
    have := hne 4 (by decide) (by assumption)
    have := hne 5 (by decide) (by assumption)
    have := hne 6 (by decide) (by assumption)
    have := hne 7 (by decide) (by assumption)
    have := hne 8 (by decide) (by assumption)
    have := hne 9 (by decide) (by assumption)
    have := hne 10 (by decide) (by assumption)
    have := hne 11 (by decide) (by assumption)
    have := hne 12 (by decide) (by assumption)
    have := hne 13 (by decide) (by assumption)
    have := hne 14 (by decide) (by assumption)
    have := hne 15 (by decide) (by assumption)
    have := hne 16 (by decide) (by assumption)
    have := hne 17 (by decide) (by assumption)
    have := hne 18 (by decide) (by assumption)
    have := hne 19 (by decide) (by assumption)
    have := hne 20 (by decide) (by assumption)
    have := hne 21 (by decide) (by assumption)
    have := hne 22 (by decide) (by assumption)
    have := hne 23 (by decide) (by assumption)
    have := hne 24 (by decide) (by assumption)
    omega

theorem kind_skip (k : Kind) {pre post name payload : Bytes} (hb : k.Boundary pre post)
    (hpost : post ≠ []) (hn : RecordName name) (hne : name ≠ endbName)
    (hp : 4 + payload.length < 2 ^ 32) (hu : nameTag name ∉ k.tags) :
    GameItemEnum.read (le32 k.number ++ (pre ++ (recordBytes name payload ++ post)))
      = GameItemEnum.read (le32 k.number ++ (pre ++ post)) := by
  cases k with
  | wall => exact typed_skip readKind_wall Wall.arms_tame (by decide) hb hpost hn hne hp hu
  | flipper => exact typed_skip readKind_flipper Flipper.arms_tame (by decide) hb hpost hn hne hp hu
  | timer => exact typed_skip readKind_timer Timer.arms_tame (by decide) hb hpost hn hne hp hu
  | plunger => exact typed_skip readKind_plunger Plunger.arms_tame (by decide) hb hpost hn hne hp hu
  | textBox => exact typed_skip readKind_textBox TextBox.arms_tame (by decide) hb hpost hn hne hp hu
  | bumper => exact typed_skip readKind_bumper Bumper.arms_tame (by decide) hb hpost hn hne hp hu
  | trigger => exact typed_skip readKind_trigger Trigger.arms_tame (by decide) hb hpost hn hne hp hu
  | light => exact typed_skip readKind_light Light.arms_tame (by decide) hb hpost hn hne hp hu
  | kicker => exact typed_skip readKind_kicker Kicker.arms_tame (by decide) hb hpost hn hne hp hu
  | decal => exact typed_skip readKind_decal Decal.arms_tame (by decide) hb hpost hn hne hp hu
  | gate => exact typed_skip readKind_gate Gate.arms_tame (by decide) hb hpost hn hne hp hu
  | spinner => exact typed_skip readKind_spinner Spinner.arms_tame (by decide) hb hpost hn hne hp hu
  | ramp => exact typed_skip readKind_ramp Ramp.arms_tame (by decide) hb hpost hn hne hp hu
  | reel => exact typed_skip readKind_reel Reel.arms_tame (by decide) hb hpost hn hne hp hu
  | lightSequencer => exact typed_skip readKind_lightSequencer LightSequencer.arms_tame (by decide) hb hpost hn hne hp hu
  | primitive => exact typed_skip readKind_primitive Primitive.arms_tame (by decide) hb hpost hn hne hp hu
  | flasher => exact typed_skip readKind_flasher Flasher.arms_tame (by decide) hb hpost hn hne hp hu
  | rubber => exact typed_skip readKind_rubber Rubber.arms_tame (by decide) hb hpost hn hne hp hu
  | hitTarget => exact typed_skip readKind_hitTarget HitTarget.arms_tame (by decide) hb hpost hn hne hp hu
  | ball => exact typed_skip readKind_ball Ball.arms_tame (by decide) hb hpost hn hne hp hu
  | partGroup => exact typed_skip readKind_partGroup PartGroup.arms_tame (by decide) hb hpost hn hne hp hu

theorem write_prefix {g : GameItemEnum} {k : Kind} {bs : Bytes} (hk : g.kind = some k)
    (h : g.write = .ok bs) : ∃ rest, bs = le32 k.number ++ rest := by
  cases g <;> cases hk
  all_goals exact writeWithType_prefix h

end Vpin
