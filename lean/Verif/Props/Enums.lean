import Verif.Lemmas.Enums
/-!
# C32: enumerations and their stored numbers

Generated by tools/gen_enumprops.py.
-/
namespace Vpin

/-- A setting `E` and its stored number are in one-to-one correspondence: different settings have
different numbers, a number is read as a setting exactly if it is the number of that setting, and
every other number is refused (with a panic). -/
structure OneToOne {E N : Type} (number : E → N) (ofNumber : N → Res E) : Prop where
  distinct : ∀ a b, number a = number b → a = b
  exact : ∀ n v, ofNumber n = .ok v ↔ number v = n
  refused : ∀ n, (∀ v, number v ≠ n) → ofNumber n = .error .panic

/-- The JSON value of a setting is read as that setting, and different settings have different
JSON values. -/
structure JsonNames {E : Type} (json : E → J) (ofJson : J → Res E) : Prop where
  back : ∀ v, ofJson (json v) = .ok v
  distinct : ∀ a b, json a = json b → a = b

theorem JsonNames.mk' {E : Type} {json : E → J} {ofJson : J → Res E}
    (h : ∀ v, ofJson (json v) = .ok v) : JsonNames json ofJson := by
  refine ⟨h, fun a b e => ?_⟩
  have h1 := h a
  rw [e, h b] at h1
  exact (Except.ok.inj h1).symm

/-- how the laws follow from a finite check of the settings and a case split on the number -/
theorem OneToOne.mk' {E N : Type} {number : E → N} {ofNumber : N → Res E}
    (hb : ∀ v, ofNumber (number v) = .ok v)
    (hf : ∀ n, (∃ v, number v = n) ∨ ofNumber n = .error .panic) : OneToOne number ofNumber := by
  refine ⟨fun a b e => ?_, fun n v => ⟨fun h => ?_, fun h => h ▸ hb v⟩, fun n h => ?_⟩
  · have h1 := hb a
    rw [e, hb b] at h1
    exact (Except.ok.inj h1).symm
  · rcases hf n with ⟨u, rfl⟩ | h'
    · rw [hb u] at h; cases h; rfl
    · rw [h'] at h; cases h
  · rcases hf n with ⟨u, hu⟩ | h'
    · exact absurd hu (h u)
    · exact h'


theorem DecalType.oneToOne : OneToOne DecalType.toU32 DecalType.ofU32 := by
  refine .mk' (fun v => by cases v <;> rfl) (fun n => ?_)
  unfold DecalType.ofU32
  by_cases h0 : n = 0
  · exact .inl ⟨.Text, h0.symm⟩
  by_cases h1 : n = 1
  · exact .inl ⟨.Image, h1.symm⟩
  rw [if_neg h0, if_neg h1]
  exact .inr rfl

theorem DecalType.jsonNames : JsonNames DecalType.toJ DecalType.ofJ := .mk' (fun v => by cases v <;> rfl)

theorem SizingType.oneToOne : OneToOne SizingType.toU32 SizingType.ofU32 := by
  refine .mk' (fun v => by cases v <;> rfl) (fun n => ?_)
  unfold SizingType.ofU32
  by_cases h0 : n = 0
  · exact .inl ⟨.AutoSize, h0.symm⟩
  by_cases h1 : n = 1
  · exact .inl ⟨.AutoWidth, h1.symm⟩
  by_cases h2 : n = 2
  · exact .inl ⟨.ManualSize, h2.symm⟩
  rw [if_neg h0, if_neg h1, if_neg h2]
  exact .inr rfl

theorem SizingType.jsonNames : JsonNames SizingType.toJ SizingType.ofJ := .mk' (fun v => by cases v <;> rfl)

theorem Filter.oneToOne : OneToOne Filter.toU32 Filter.ofU32 := by
  refine .mk' (fun v => by cases v <;> rfl) (fun n => ?_)
  unfold Filter.ofU32
  by_cases h0 : n = 0
  · exact .inl ⟨.None, h0.symm⟩
  by_cases h1 : n = 1
  · exact .inl ⟨.Additive, h1.symm⟩
  by_cases h2 : n = 2
  · exact .inl ⟨.Overlay, h2.symm⟩
  by_cases h3 : n = 3
  · exact .inl ⟨.Multiply, h3.symm⟩
  by_cases h4 : n = 4
  · exact .inl ⟨.Screen, h4.symm⟩
  rw [if_neg h0, if_neg h1, if_neg h2, if_neg h3, if_neg h4]
  exact .inr rfl

theorem Filter.jsonNames : JsonNames Filter.toJ Filter.ofJ := .mk' (fun v => by cases v <;> rfl)

theorem RenderMode.oneToOne : OneToOne RenderMode.toU32 RenderMode.ofU32 := by
  refine .mk' (fun v => by cases v <;> rfl) (fun n => ?_)
  unfold RenderMode.ofU32
  by_cases h0 : n = 0
  · exact .inl ⟨.Flasher, h0.symm⟩
  by_cases h1 : n = 1
  · exact .inl ⟨.DMD, h1.symm⟩
  by_cases h2 : n = 2
  · exact .inl ⟨.Display, h2.symm⟩
  by_cases h3 : n = 3
  · exact .inl ⟨.AlphaSeg, h3.symm⟩
  by_cases h4 : n = 4
  · exact .inl ⟨.ExtRender, h4.symm⟩
  rw [if_neg h0, if_neg h1, if_neg h2, if_neg h3, if_neg h4]
  exact .inr rfl

theorem RenderMode.jsonNames : JsonNames RenderMode.toJ RenderMode.ofJ := .mk' (fun v => by cases v <;> rfl)

theorem DmdStyle.oneToOne : OneToOne DmdStyle.toU32 DmdStyle.ofU32 := by
  refine .mk' (fun v => by cases v <;> rfl) (fun n => ?_)
  unfold DmdStyle.ofU32
  by_cases h0 : n = 0
  · exact .inl ⟨.Legacy, h0.symm⟩
  by_cases h1 : n = 1
  · exact .inl ⟨.Plasma, h1.symm⟩
  by_cases h2 : n = 2
  · exact .inl ⟨.RedLED, h2.symm⟩
  by_cases h3 : n = 3
  · exact .inl ⟨.GreenLED, h3.symm⟩
  by_cases h4 : n = 4
  · exact .inl ⟨.YellowLED, h4.symm⟩
  by_cases h5 : n = 5
  · exact .inl ⟨.GenericPlasma, h5.symm⟩
  by_cases h6 : n = 6
  · exact .inl ⟨.GenericLED, h6.symm⟩
  rw [if_neg h0, if_neg h1, if_neg h2, if_neg h3, if_neg h4, if_neg h5, if_neg h6]
  exact .inr rfl

theorem DisplayStyle.oneToOne : OneToOne DisplayStyle.toU32 DisplayStyle.ofU32 := by
  refine .mk' (fun v => by cases v <;> rfl) (fun n => ?_)
  unfold DisplayStyle.ofU32
  by_cases h0 : n = 0
  · exact .inl ⟨.Pixelated, h0.symm⟩
  by_cases h1 : n = 1
  · exact .inl ⟨.Smoothed, h1.symm⟩
  by_cases h2 : n = 2
  · exact .inl ⟨.CRT, h2.symm⟩
  rw [if_neg h0, if_neg h1, if_neg h2]
  exact .inr rfl

theorem SegStyle.oneToOne : OneToOne SegStyle.toU32 SegStyle.ofU32 := by
  refine .mk' (fun v => by cases v <;> rfl) (fun n => ?_)
  unfold SegStyle.ofU32
  by_cases h0 : n = 0
  · exact .inl ⟨.Plasma, h0.symm⟩
  by_cases h1 : n = 1
  · exact .inl ⟨.BlueVFD, h1.symm⟩
  by_cases h2 : n = 2
  · exact .inl ⟨.GreenVFD, h2.symm⟩
  by_cases h3 : n = 3
  · exact .inl ⟨.RedLED, h3.symm⟩
  by_cases h4 : n = 4
  · exact .inl ⟨.GreenLED, h4.symm⟩
  by_cases h5 : n = 5
  · exact .inl ⟨.YellowLED, h5.symm⟩
  by_cases h6 : n = 6
  · exact .inl ⟨.GenericPlasma, h6.symm⟩
  by_cases h7 : n = 7
  · exact .inl ⟨.GenericLED, h7.symm⟩
  rw [if_neg h0, if_neg h1, if_neg h2, if_neg h3, if_neg h4, if_neg h5, if_neg h6, if_neg h7]
  exact .inr rfl

theorem SegFamily.oneToOne : OneToOne SegFamily.toU32 SegFamily.ofU32 := by
  refine .mk' (fun v => by cases v <;> rfl) (fun n => ?_)
  unfold SegFamily.ofU32
  by_cases h0 : n = 0
  · exact .inl ⟨.Generic, h0.symm⟩
  by_cases h1 : n = 1
  · exact .inl ⟨.Gottlieb, h1.symm⟩
  by_cases h2 : n = 2
  · exact .inl ⟨.Williams, h2.symm⟩
  by_cases h3 : n = 3
  · exact .inl ⟨.Bally, h3.symm⟩
  by_cases h4 : n = 4
  · exact .inl ⟨.Atari, h4.symm⟩
  rw [if_neg h0, if_neg h1, if_neg h2, if_neg h3, if_neg h4]
  exact .inr rfl

theorem RampType.oneToOne : OneToOne RampType.toU32 RampType.ofU32 := by
  refine .mk' (fun v => by cases v <;> rfl) (fun n => ?_)
  unfold RampType.ofU32
  by_cases h0 : n = 0
  · exact .inl ⟨.Flat, h0.symm⟩
  by_cases h1 : n = 1
  · exact .inl ⟨.FourWire, h1.symm⟩
  by_cases h2 : n = 2
  · exact .inl ⟨.TwoWire, h2.symm⟩
  by_cases h3 : n = 3
  · exact .inl ⟨.ThreeWireLeft, h3.symm⟩
  by_cases h4 : n = 4
  · exact .inl ⟨.ThreeWireRight, h4.symm⟩
  by_cases h5 : n = 5
  · exact .inl ⟨.OneWire, h5.symm⟩
  rw [if_neg h0, if_neg h1, if_neg h2, if_neg h3, if_neg h4, if_neg h5]
  exact .inr rfl

theorem RampType.jsonNames : JsonNames RampType.toJ RampType.ofJ := .mk' (fun v => by cases v <;> rfl)

theorem VisibilityMask.oneToOne : OneToOne VisibilityMask.toU32 VisibilityMask.ofU32 := by
  refine .mk' (fun v => by cases v <;> rfl) (fun n => ?_)
  unfold VisibilityMask.ofU32
  by_cases h0 : n = 1
  · exact .inl ⟨.Playfield, h0.symm⟩
  by_cases h1 : n = 2
  · exact .inl ⟨.Scoreview, h1.symm⟩
  by_cases h2 : n = 4
  · exact .inl ⟨.Backglass, h2.symm⟩
  by_cases h3 : n = 8
  · exact .inl ⟨.Topper, h3.symm⟩
  by_cases h4 : n = 0x10
  · exact .inl ⟨.ApronLeft, h4.symm⟩
  by_cases h5 : n = 0x20
  · exact .inl ⟨.ApronRight, h5.symm⟩
  by_cases h6 : n = 0x40
  · exact .inl ⟨.MixedReality, h6.symm⟩
  by_cases h7 : n = 0x80
  · exact .inl ⟨.VirtualReality, h7.symm⟩
  rw [if_neg h0, if_neg h1, if_neg h2, if_neg h3, if_neg h4, if_neg h5, if_neg h6, if_neg h7]
  exact .inr rfl

theorem SpaceReference.oneToOne : OneToOne SpaceReference.toU32 SpaceReference.ofU32 := by
  refine .mk' (fun v => by cases v <;> rfl) (fun n => ?_)
  unfold SpaceReference.ofU32
  by_cases h0 : n = 0
  · exact .inl ⟨.Playfield, h0.symm⟩
  by_cases h1 : n = 1
  · exact .inl ⟨.Cabinet, h1.symm⟩
  by_cases h2 : n = 2
  · exact .inl ⟨.CabinetFeet, h2.symm⟩
  by_cases h3 : n = 3
  · exact .inl ⟨.Room, h3.symm⟩
  by_cases h4 : n = 4
  · exact .inl ⟨.Inherit, h4.symm⟩
  rw [if_neg h0, if_neg h1, if_neg h2, if_neg h3, if_neg h4]
  exact .inr rfl

theorem SpaceReference.jsonNames : JsonNames SpaceReference.toJ SpaceReference.ofJ := .mk' (fun v => by cases v <;> rfl)

theorem KickerType.oneToOne : OneToOne KickerType.toU32 KickerType.ofU32 := by
  refine .mk' (fun v => by cases v <;> rfl) (fun n => ?_)
  unfold KickerType.ofU32
  by_cases h0 : n = 0
  · exact .inl ⟨.Invisible, h0.symm⟩
  by_cases h1 : n = 1
  · exact .inl ⟨.Hole, h1.symm⟩
  by_cases h2 : n = 2
  · exact .inl ⟨.Cup, h2.symm⟩
  by_cases h3 : n = 3
  · exact .inl ⟨.HoleSimple, h3.symm⟩
  by_cases h4 : n = 4
  · exact .inl ⟨.Williams, h4.symm⟩
  by_cases h5 : n = 5
  · exact .inl ⟨.Gottlieb, h5.symm⟩
  by_cases h6 : n = 6
  · exact .inl ⟨.Cup2, h6.symm⟩
  rw [if_neg h0, if_neg h1, if_neg h2, if_neg h3, if_neg h4, if_neg h5, if_neg h6]
  exact .inr rfl

theorem KickerType.jsonNames : JsonNames KickerType.toJ KickerType.ofJ := .mk' (fun v => by cases v <;> rfl)

theorem TargetType.oneToOne : OneToOne TargetType.toU32 TargetType.ofU32 := by
  refine .mk' (fun v => by cases v <;> rfl) (fun n => ?_)
  unfold TargetType.ofU32
  by_cases h0 : n = 1
  · exact .inl ⟨.DropTargetBeveled, h0.symm⟩
  by_cases h1 : n = 2
  · exact .inl ⟨.DropTargetSimple, h1.symm⟩
  by_cases h2 : n = 3
  · exact .inl ⟨.HitTargetRound, h2.symm⟩
  by_cases h3 : n = 4
  · exact .inl ⟨.HitTargetRectangle, h3.symm⟩
  by_cases h4 : n = 5
  · exact .inl ⟨.HitFatTargetRectangle, h4.symm⟩
  by_cases h5 : n = 6
  · exact .inl ⟨.HitFatTargetSquare, h5.symm⟩
  by_cases h6 : n = 7
  · exact .inl ⟨.DropTargetFlatSimple, h6.symm⟩
  by_cases h7 : n = 8
  · exact .inl ⟨.HitFatTargetSlim, h7.symm⟩
  by_cases h8 : n = 9
  · exact .inl ⟨.HitTargetSlim, h8.symm⟩
  rw [if_neg h0, if_neg h1, if_neg h2, if_neg h3, if_neg h4, if_neg h5, if_neg h6, if_neg h7, if_neg h8]
  exact .inr rfl

theorem TargetType.jsonNames : JsonNames TargetType.toJ TargetType.ofJ := .mk' (fun v => by cases v <;> rfl)

theorem PlungerType.oneToOne : OneToOne PlungerType.toU32 PlungerType.ofU32 := by
  refine .mk' (fun v => by cases v <;> rfl) (fun n => ?_)
  unfold PlungerType.ofU32
  by_cases h0 : n = 0
  · exact .inl ⟨.Unknown, h0.symm⟩
  by_cases h1 : n = 1
  · exact .inl ⟨.Modern, h1.symm⟩
  by_cases h2 : n = 2
  · exact .inl ⟨.Flat, h2.symm⟩
  by_cases h3 : n = 3
  · exact .inl ⟨.Custom, h3.symm⟩
  rw [if_neg h0, if_neg h1, if_neg h2, if_neg h3]
  exact .inr rfl

theorem PlungerType.jsonNames : JsonNames PlungerType.toJ PlungerType.ofJ := .mk' (fun v => by cases v <;> rfl)

theorem TriggerShape.jsonNames : JsonNames TriggerShape.toJ TriggerShape.ofJ := .mk' (fun v => by cases v <;> rfl)

theorem TextAlignment.oneToOne : OneToOne TextAlignment.toU32 TextAlignment.ofU32 := by
  refine .mk' (fun v => by cases v <;> rfl) (fun n => ?_)
  unfold TextAlignment.ofU32
  by_cases h0 : n = 0
  · exact .inl ⟨.Left, h0.symm⟩
  by_cases h1 : n = 1
  · exact .inl ⟨.Center, h1.symm⟩
  by_cases h2 : n = 2
  · exact .inl ⟨.Right, h2.symm⟩
  rw [if_neg h0, if_neg h1, if_neg h2]
  exact .inr rfl

theorem TextAlignment.jsonNames : JsonNames TextAlignment.toJ TextAlignment.ofJ := .mk' (fun v => by cases v <;> rfl)

theorem RampImageAlignment.oneToOne : OneToOne RampImageAlignment.toU32 RampImageAlignment.ofU32 := by
  refine .mk' (fun v => by cases v <;> rfl) (fun n => ?_)
  unfold RampImageAlignment.ofU32
  by_cases h0 : n = 0
  · exact .inl ⟨.World, h0.symm⟩
  by_cases h1 : n = 1
  · exact .inl ⟨.Wrap, h1.symm⟩
  by_cases h2 : n = 2
  · exact .inl ⟨.Unknown, h2.symm⟩
  rw [if_neg h0, if_neg h1, if_neg h2]
  exact .inr rfl

theorem RampImageAlignment.jsonNames : JsonNames RampImageAlignment.toJ RampImageAlignment.ofJ := .mk' (fun v => by cases v <;> rfl)

theorem ShadowMode.oneToOne : OneToOne ShadowMode.toU32 ShadowMode.ofU32 := by
  refine .mk' (fun v => by cases v <;> rfl) (fun n => ?_)
  unfold ShadowMode.ofU32
  by_cases h0 : n = 0
  · exact .inl ⟨.None, h0.symm⟩
  by_cases h1 : n = 1
  · exact .inl ⟨.RaytracedBallShadows, h1.symm⟩
  rw [if_neg h0, if_neg h1]
  exact .inr rfl

theorem ShadowMode.jsonNames : JsonNames ShadowMode.toJ ShadowMode.ofJ := .mk' (fun v => by cases v <;> rfl)

theorem Fader.oneToOne : OneToOne Fader.toU32 Fader.ofU32 := by
  refine .mk' (fun v => by cases v <;> rfl) (fun n => ?_)
  unfold Fader.ofU32
  by_cases h0 : n = 0
  · exact .inl ⟨.None, h0.symm⟩
  by_cases h1 : n = 1
  · exact .inl ⟨.Linear, h1.symm⟩
  by_cases h2 : n = 2
  · exact .inl ⟨.Incandescent, h2.symm⟩
  rw [if_neg h0, if_neg h1, if_neg h2]
  exact .inr rfl

theorem Fader.jsonNames : JsonNames Fader.toJ Fader.ofJ := .mk' (fun v => by cases v <;> rfl)

theorem ViewLayoutMode.oneToOne : OneToOne ViewLayoutMode.toU32 ViewLayoutMode.ofU32 := by
  refine .mk' (fun v => by cases v <;> rfl) (fun n => ?_)
  unfold ViewLayoutMode.ofU32
  by_cases h0 : n = 0
  · exact .inl ⟨.Legacy, h0.symm⟩
  by_cases h1 : n = 1
  · exact .inl ⟨.Camera, h1.symm⟩
  by_cases h2 : n = 2
  · exact .inl ⟨.Window, h2.symm⟩
  rw [if_neg h0, if_neg h1, if_neg h2]
  exact .inr rfl

theorem ViewLayoutMode.jsonNames : JsonNames ViewLayoutMode.toJ ViewLayoutMode.ofJ := .mk' (fun v => by cases v <;> rfl)

theorem MaterialType.oneToOne : OneToOne MaterialType.toI32 MaterialType.ofI32 := by
  refine .mk' (fun v => by cases v <;> rfl) (fun n => ?_)
  unfold MaterialType.ofI32
  by_cases h0 : n = (-1)
  · exact .inl ⟨.Unknown, h0.symm⟩
  by_cases h1 : n = 0
  · exact .inl ⟨.Basic, h1.symm⟩
  by_cases h2 : n = 1
  · exact .inl ⟨.Metal, h2.symm⟩
  rw [if_neg h0, if_neg h1, if_neg h2]
  exact .inr rfl

theorem MaterialType.jsonNames : JsonNames MaterialType.toJ MaterialType.ofJ := .mk' (fun v => by cases v <;> rfl)

theorem RenderProbeType.oneToOne : OneToOne RenderProbeType.toU32 RenderProbeType.ofU32 := by
  refine .mk' (fun v => by cases v <;> rfl) (fun n => ?_)
  unfold RenderProbeType.ofU32
  by_cases h0 : n = 0
  · exact .inl ⟨.PlaneReflection, h0.symm⟩
  by_cases h1 : n = 1
  · exact .inl ⟨.ScreenSpaceTransparency, h1.symm⟩
  rw [if_neg h0, if_neg h1]
  exact .inr rfl

theorem RenderProbeType.jsonNames : JsonNames RenderProbeType.toJ RenderProbeType.ofJ := .mk' (fun v => by cases v <;> rfl)

theorem ReflectionMode.oneToOne : OneToOne ReflectionMode.toU32 ReflectionMode.ofU32 := by
  refine .mk' (fun v => by cases v <;> rfl) (fun n => ?_)
  unfold ReflectionMode.ofU32
  by_cases h0 : n = 0
  · exact .inl ⟨.None, h0.symm⟩
  by_cases h1 : n = 1
  · exact .inl ⟨.Balls, h1.symm⟩
  by_cases h2 : n = 2
  · exact .inl ⟨.Static, h2.symm⟩
  by_cases h3 : n = 3
  · exact .inl ⟨.StaticNBalls, h3.symm⟩
  by_cases h4 : n = 4
  · exact .inl ⟨.StaticNDynamic, h4.symm⟩
  by_cases h5 : n = 5
  · exact .inl ⟨.Dynamic, h5.symm⟩
  by_cases h6 : n = 6
  · exact .inl ⟨.Unknown, h6.symm⟩
  rw [if_neg h0, if_neg h1, if_neg h2, if_neg h3, if_neg h4, if_neg h5, if_neg h6]
  exact .inr rfl

theorem ReflectionMode.jsonNames : JsonNames ReflectionMode.toJ ReflectionMode.ofJ := .mk' (fun v => by cases v <;> rfl)

/-- C32: every enumerated setting that accepts only its own numbers. -/
theorem C32_one_to_one :
    OneToOne DecalType.toU32 DecalType.ofU32 ∧
    OneToOne SizingType.toU32 SizingType.ofU32 ∧
    OneToOne Filter.toU32 Filter.ofU32 ∧
    OneToOne RenderMode.toU32 RenderMode.ofU32 ∧
    OneToOne DmdStyle.toU32 DmdStyle.ofU32 ∧
    OneToOne DisplayStyle.toU32 DisplayStyle.ofU32 ∧
    OneToOne SegStyle.toU32 SegStyle.ofU32 ∧
    OneToOne SegFamily.toU32 SegFamily.ofU32 ∧
    OneToOne RampType.toU32 RampType.ofU32 ∧
    OneToOne VisibilityMask.toU32 VisibilityMask.ofU32 ∧
    OneToOne SpaceReference.toU32 SpaceReference.ofU32 ∧
    OneToOne KickerType.toU32 KickerType.ofU32 ∧
    OneToOne TargetType.toU32 TargetType.ofU32 ∧
    OneToOne PlungerType.toU32 PlungerType.ofU32 ∧
    OneToOne TextAlignment.toU32 TextAlignment.ofU32 ∧
    OneToOne RampImageAlignment.toU32 RampImageAlignment.ofU32 ∧
    OneToOne ShadowMode.toU32 ShadowMode.ofU32 ∧
    OneToOne Fader.toU32 Fader.ofU32 ∧
    OneToOne ViewLayoutMode.toU32 ViewLayoutMode.ofU32 ∧
    OneToOne MaterialType.toI32 MaterialType.ofI32 ∧
    OneToOne RenderProbeType.toU32 RenderProbeType.ofU32 ∧
    OneToOne ReflectionMode.toU32 ReflectionMode.ofU32 :=
  ⟨DecalType.oneToOne,
   SizingType.oneToOne,
   Filter.oneToOne,
   RenderMode.oneToOne,
   DmdStyle.oneToOne,
   DisplayStyle.oneToOne,
   SegStyle.oneToOne,
   SegFamily.oneToOne,
   RampType.oneToOne,
   VisibilityMask.oneToOne,
   SpaceReference.oneToOne,
   KickerType.oneToOne,
   TargetType.oneToOne,
   PlungerType.oneToOne,
   TextAlignment.oneToOne,
   RampImageAlignment.oneToOne,
   ShadowMode.oneToOne,
   Fader.oneToOne,
   ViewLayoutMode.oneToOne,
   MaterialType.oneToOne,
   RenderProbeType.oneToOne,
   ReflectionMode.oneToOne⟩

/-- C32: the shape of a trigger: numbers 0 to 7 are the eight shapes, every other number is read as
the shape "wire A" (and so is not preserved). -/
theorem C32_trigger_shape :
    (∀ v, TriggerShape.ofU32 v.toU32 = .ok v) ∧
    (∀ a b : TriggerShape, a.toU32 = b.toU32 → a = b) ∧
    (∀ n : UInt32, n ≤ 7 → ∃ v, TriggerShape.ofU32 n = .ok v ∧ v.toU32 = n) ∧
    (∀ n : UInt32, 7 < n → TriggerShape.ofU32 n = .ok .WireA) := by
  refine ⟨TriggerShape.ofU32_toU32, fun a b => ?_, fun n hn => ?_, fun n hn => ?_⟩
  · cases a <;> cases b <;> decide
  · have : n = 0 ∨ n = 1 ∨ n = 2 ∨ n = 3 ∨ n = 4 ∨ n = 5 ∨ n = 6 ∨ n = 7 := by
      simp only [← UInt32.toNat_inj, UInt32.reduceToNat]
      have := UInt32.le_iff_toNat_le.1 hn
      simp only [UInt32.reduceToNat] at this
      omega
    rcases this with rfl | rfl | rfl | rfl | rfl | rfl | rfl | rfl <;> exact ⟨_, rfl, rfl⟩
  · have hne : ∀ m : UInt32, m ≤ 7 → ¬ n = m := fun m hm e => by
      rw [e] at hn; exact absurd hm (UInt32.not_le.2 hn)
    unfold TriggerShape.ofU32
    rw [if_neg (hne 0 (by decide)), if_neg (hne 1 (by decide)), if_neg (hne 2 (by decide)),
      if_neg (hne 3 (by decide)), if_neg (hne 4 (by decide)), if_neg (hne 5 (by decide)),
      if_neg (hne 6 (by decide)), if_neg (hne 7 (by decide))]

/-- C32: gate types and tone mappers keep numbers they do not know: every number is read, and
stored back as the same number. -/
theorem C32_open_enumerations :
    (∀ n : UInt32, ∃ v, GateType.ofU32 n = .ok v ∧ v.toU32 = n) ∧
    (∀ v : GateType, v.WF → GateType.ofU32 v.toU32 = .ok v) ∧
    (∀ n : UInt32, ∃ v, ToneMapper.ofU32 n = .ok v ∧ v.toU32 = n) ∧
    (∀ v : ToneMapper, v.WF → ToneMapper.ofU32 v.toU32 = .ok v) := by
  refine ⟨fun n => ?_, GateType.ofU32_toU32, fun n => ?_, ToneMapper.ofU32_toU32⟩
  · unfold GateType.ofU32
    repeat' split
    all_goals exact ⟨_, rfl, by first | exact Eq.symm (by assumption) | rfl⟩
  · unfold ToneMapper.ofU32
    repeat' split
    all_goals exact ⟨_, rfl, by first | exact Eq.symm (by assumption) | rfl⟩

/-- C32: the variant for unknown numbers is not kept when it holds a known one. -/
theorem C32_unknown_holding_known_number :
    GateType.ofU32 (GateType.Unknown 2).toU32 ≠ .ok (.Unknown 2) ∧
    ToneMapper.ofU32 (ToneMapper.Other 1).toU32 ≠ .ok (.Other 1) := by
  constructor <;> (intro h; cases h)

theorem GateType.jsonBack (v : GateType) (h : v.WF) : GateType.ofJ v.toJ = .ok v := by
  cases v with
  | Unknown n =>
    have hn : 0 ≤ (n.toNat : Int) ∧ (n.toNat : Int) < 2 ^ 32 := by
      have := n.toNat_lt
      omega
    have e : GateType.ofJ (.num n.toNat) = GateType.ofU32 (UInt32.ofNat ((n.toNat : Int)).toNat) := by
      simp only [GateType.ofJ]
      rw [if_pos hn]
    have := GateType.ofU32_toU32 _ h
    simp only [GateType.toU32] at this
    simp only [GateType.toJ]
    rw [e, Int.toNat_natCast, UInt32.ofNat_toNat, this]
  | _ => rfl

theorem ToneMapper.jsonBack (v : ToneMapper) (h : v.WF) : ToneMapper.ofJ v.toJ = .ok v := by
  cases v with
  | Other n =>
    have hn : 0 ≤ (n.toNat : Int) ∧ (n.toNat : Int) < 2 ^ 32 := by
      have := n.toNat_lt
      omega
    have e : ToneMapper.ofJ (.num n.toNat) = ToneMapper.ofU32 (UInt32.ofNat ((n.toNat : Int)).toNat) := by
      simp only [ToneMapper.ofJ]
      rw [if_pos hn]
    have := ToneMapper.ofU32_toU32 _ h
    simp only [ToneMapper.toU32] at this
    simp only [ToneMapper.toJ]
    rw [e, Int.toNat_natCast, UInt32.ofNat_toNat, this]
  | _ => rfl

/-- not vacuous -/
example : (GateType.Unknown 77).WF ∧ (ToneMapper.Other 9).WF := by decide

/-- C32: the names of settings in JSON. -/
theorem C32_json_names :
    JsonNames DecalType.toJ DecalType.ofJ ∧
    JsonNames SizingType.toJ SizingType.ofJ ∧
    JsonNames Filter.toJ Filter.ofJ ∧
    JsonNames RenderMode.toJ RenderMode.ofJ ∧
    JsonNames RampType.toJ RampType.ofJ ∧
    JsonNames SpaceReference.toJ SpaceReference.ofJ ∧
    JsonNames KickerType.toJ KickerType.ofJ ∧
    JsonNames TargetType.toJ TargetType.ofJ ∧
    JsonNames PlungerType.toJ PlungerType.ofJ ∧
    JsonNames TriggerShape.toJ TriggerShape.ofJ ∧
    JsonNames TextAlignment.toJ TextAlignment.ofJ ∧
    JsonNames RampImageAlignment.toJ RampImageAlignment.ofJ ∧
    JsonNames ShadowMode.toJ ShadowMode.ofJ ∧
    JsonNames Fader.toJ Fader.ofJ ∧
    JsonNames ViewLayoutMode.toJ ViewLayoutMode.ofJ ∧
    JsonNames MaterialType.toJ MaterialType.ofJ ∧
    JsonNames RenderProbeType.toJ RenderProbeType.ofJ ∧
    JsonNames ReflectionMode.toJ ReflectionMode.ofJ ∧
    (∀ v : GateType, v.WF → GateType.ofJ v.toJ = .ok v) ∧
    (∀ v : ToneMapper, v.WF → ToneMapper.ofJ v.toJ = .ok v) :=
  ⟨DecalType.jsonNames,
   SizingType.jsonNames,
   Filter.jsonNames,
   RenderMode.jsonNames,
   RampType.jsonNames,
   SpaceReference.jsonNames,
   KickerType.jsonNames,
   TargetType.jsonNames,
   PlungerType.jsonNames,
   TriggerShape.jsonNames,
   TextAlignment.jsonNames,
   RampImageAlignment.jsonNames,
   ShadowMode.jsonNames,
   Fader.jsonNames,
   ViewLayoutMode.jsonNames,
   MaterialType.jsonNames,
   RenderProbeType.jsonNames,
   ReflectionMode.jsonNames,
   GateType.jsonBack, ToneMapper.jsonBack⟩

end Vpin
