import Verif.Lemmas.Skip
import Verif.Lemmas.GameItem
/-!
# C07: reading always terminates

The model's record loop counts its iterations down from a limit ("fuel"); running out of it would be
the error `.fuel`, which stands for a loop that goes on for ever. The theorems say that it never
happens and that the limit plays no role.
-/
namespace Vpin

/-- C07: reading any bytes as a game item ends with a value, a panic or an input error. -/
theorem C07_item_read_terminates (data : Bytes) : GameItemEnum.read data ≠ .error .fuel := by
  unfold GameItemEnum.read
  have ht : Tame (do let t ← getU32N; GameItemEnum.readKind t) :=
    Tame.bind u32N_tame readKind_tame
  intro h
  split at h
  · cases h
  · next e he =>
    cases h
    exact (ht.mono _).1 he

/-- C07: a record loop over arms that only move forward gives the same result with every limit above
the number of bytes, and never runs out. -/
theorem C07_limit_irrelevant {σ : Type} {hs : Handlers σ} (ht : ArmsTame hs) (s : σ) (data : Bytes)
    (f f' : Nat) (hf : data.length < f) (hf' : data.length < f') :
    loop (dispatch hs) f s (Rd.new data) = loop (dispatch hs) f' s (Rd.new data) ∧
    loop (dispatch hs) f s (Rd.new data) ≠ .error .fuel :=
  loop_fuel (dispatch_tame ht) f f' s (Rd.new data) hf hf'

/-- C07: the loop visits at most one record per 8 bytes of input, whatever the input. -/
theorem C07_records_visited {σ : Type} {hs : Handlers σ} (ht : ArmsTame hs) {n : Nat} {s s' : σ}
    {data : Bytes} {r : Rd} (hv : Visits (dispatch hs) n s (Rd.new data) s' r) :
    n ≤ data.length / 8 := by
  have := visits_cost (dispatch_tame ht) hv
  have e : (Rd.new data).rest.length = data.length := rfl
  omega

/-- the arms of every kind of item only move forward, so the two theorems above apply to them -/
theorem C07_all_items :
    ArmsTame Wall.arms ∧ ArmsTame Flipper.arms ∧ ArmsTame Timer.arms ∧ ArmsTame Plunger.arms ∧
    ArmsTame TextBox.arms ∧ ArmsTame Bumper.arms ∧ ArmsTame Trigger.arms ∧ ArmsTame Light.arms ∧
    ArmsTame Kicker.arms ∧ ArmsTame Decal.arms ∧ ArmsTame Gate.arms ∧ ArmsTame Spinner.arms ∧
    ArmsTame Ramp.arms ∧ ArmsTame Reel.arms ∧ ArmsTame LightSequencer.arms ∧
    ArmsTame Primitive.arms ∧ ArmsTame Flasher.arms ∧ ArmsTame Rubber.arms ∧
    ArmsTame HitTarget.arms ∧ ArmsTame Ball.arms ∧ ArmsTame PartGroup.arms ∧
    ArmsTame Generic.arms ∧ ArmsTame DragPoint.arms :=
  ⟨Wall.arms_tame, Flipper.arms_tame, Timer.arms_tame, Plunger.arms_tame, TextBox.arms_tame,
   Bumper.arms_tame, Trigger.arms_tame, Light.arms_tame, Kicker.arms_tame, Decal.arms_tame,
   Gate.arms_tame, Spinner.arms_tame, Ramp.arms_tame, Reel.arms_tame, LightSequencer.arms_tame,
   Primitive.arms_tame, Flasher.arms_tame, Rubber.arms_tame, HitTarget.arms_tame, Ball.arms_tame,
   PartGroup.arms_tame, Generic.arms_tame, DragPoint.arms_tame⟩

/-- a reader that stops in the middle of a record: `n = 1` visit of 12 bytes is possible -/
example : ∃ s r, Visits (dispatch Timer.arms) 1 Timer.init
    (Rd.new ([8, 0, 0, 0, 0x54, 0x4d, 0x4f, 0x4e] ++ [1, 0, 0, 0] ++ [9])) s r :=
  ⟨_, _, .record (by rfl) (by rfl) (by rfl) (.here _ _)⟩

/-- termination is not success: cut off data is an error, not a value -/
example : GameItemEnum.read (le32 2 ++ [8, 0, 0, 0]) = .error .io ∨
    GameItemEnum.read (le32 2 ++ [8, 0, 0, 0]) = .error .panic := by decide +kernel

end Vpin
