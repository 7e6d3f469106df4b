import Verif.Lemmas.Inv
import Verif.Spec.Items
/-
Enumeration fields. Generated by tools/gen_items.py.
-/
namespace Vpin


theorem DecalType.ofU32_toU32 (v : DecalType) : DecalType.ofU32 v.toU32 = .ok v := by cases v <;> rfl

theorem DecalType.rt : FieldRT (wEnum DecalType.toU32) (getEnum DecalType.ofU32) Any := enum_rt fun v _ => DecalType.ofU32_toU32 v

theorem SizingType.ofU32_toU32 (v : SizingType) : SizingType.ofU32 v.toU32 = .ok v := by cases v <;> rfl

theorem SizingType.rt : FieldRT (wEnum SizingType.toU32) (getEnum SizingType.ofU32) Any := enum_rt fun v _ => SizingType.ofU32_toU32 v

theorem Filter.ofU32_toU32 (v : Filter) : Filter.ofU32 v.toU32 = .ok v := by cases v <;> rfl

theorem Filter.rt : FieldRT (wEnum Filter.toU32) (getEnum Filter.ofU32) Any := enum_rt fun v _ => Filter.ofU32_toU32 v

theorem RenderMode.ofU32_toU32 (v : RenderMode) : RenderMode.ofU32 v.toU32 = .ok v := by cases v <;> rfl

theorem RenderMode.rt : FieldRT (wEnum RenderMode.toU32) (getEnum RenderMode.ofU32) Any := enum_rt fun v _ => RenderMode.ofU32_toU32 v

theorem DmdStyle.ofU32_toU32 (v : DmdStyle) : DmdStyle.ofU32 v.toU32 = .ok v := by cases v <;> rfl

theorem DmdStyle.rt : FieldRT (wEnum DmdStyle.toU32) (getEnum DmdStyle.ofU32) Any := enum_rt fun v _ => DmdStyle.ofU32_toU32 v

theorem DisplayStyle.ofU32_toU32 (v : DisplayStyle) : DisplayStyle.ofU32 v.toU32 = .ok v := by cases v <;> rfl

theorem DisplayStyle.rt : FieldRT (wEnum DisplayStyle.toU32) (getEnum DisplayStyle.ofU32) Any := enum_rt fun v _ => DisplayStyle.ofU32_toU32 v

theorem SegStyle.ofU32_toU32 (v : SegStyle) : SegStyle.ofU32 v.toU32 = .ok v := by cases v <;> rfl

theorem SegStyle.rt : FieldRT (wEnum SegStyle.toU32) (getEnum SegStyle.ofU32) Any := enum_rt fun v _ => SegStyle.ofU32_toU32 v

theorem SegFamily.ofU32_toU32 (v : SegFamily) : SegFamily.ofU32 v.toU32 = .ok v := by cases v <;> rfl

theorem SegFamily.rt : FieldRT (wEnum SegFamily.toU32) (getEnum SegFamily.ofU32) Any := enum_rt fun v _ => SegFamily.ofU32_toU32 v

theorem RampType.ofU32_toU32 (v : RampType) : RampType.ofU32 v.toU32 = .ok v := by cases v <;> rfl

theorem RampType.rt : FieldRT (wEnum RampType.toU32) (getEnum RampType.ofU32) Any := enum_rt fun v _ => RampType.ofU32_toU32 v

theorem VisibilityMask.ofU32_toU32 (v : VisibilityMask) : VisibilityMask.ofU32 v.toU32 = .ok v := by cases v <;> rfl

theorem VisibilityMask.rt : FieldRT (wEnum VisibilityMask.toU32) (getEnum VisibilityMask.ofU32) Any := enum_rt fun v _ => VisibilityMask.ofU32_toU32 v

theorem SpaceReference.ofU32_toU32 (v : SpaceReference) : SpaceReference.ofU32 v.toU32 = .ok v := by cases v <;> rfl

theorem SpaceReference.rt : FieldRT (wEnum SpaceReference.toU32) (getEnum SpaceReference.ofU32) Any := enum_rt fun v _ => SpaceReference.ofU32_toU32 v

theorem KickerType.ofU32_toU32 (v : KickerType) : KickerType.ofU32 v.toU32 = .ok v := by cases v <;> rfl

theorem KickerType.rt : FieldRT (wEnum KickerType.toU32) (getEnum KickerType.ofU32) Any := enum_rt fun v _ => KickerType.ofU32_toU32 v

theorem TargetType.ofU32_toU32 (v : TargetType) : TargetType.ofU32 v.toU32 = .ok v := by cases v <;> rfl

theorem TargetType.rt : FieldRT (wEnum TargetType.toU32) (getEnum TargetType.ofU32) Any := enum_rt fun v _ => TargetType.ofU32_toU32 v

theorem GateType.ofU32_toU32 (v : GateType) (h : v.WF) : GateType.ofU32 v.toU32 = .ok v := by
  cases v with
  | Unknown n =>
    simp only [GateType.WF] at h
    simp [GateType.ofU32, GateType.toU32, h]
  | _ => rfl

theorem GateType.rt : FieldRT (wEnum GateType.toU32) (getEnum GateType.ofU32) GateType.WF := enum_rt GateType.ofU32_toU32

theorem GateType.ofU32_wf (n : UInt32) (v : GateType) (h : GateType.ofU32 n = .ok v) : v.WF := by
  unfold GateType.ofU32 at h
  repeat' split at h
  all_goals cases h
  all_goals simp_all [GateType.WF]

theorem GateType.gp : GP (getEnum GateType.ofU32) GateType.WF := enum_gp GateType.ofU32_wf

theorem PlungerType.ofU32_toU32 (v : PlungerType) : PlungerType.ofU32 v.toU32 = .ok v := by cases v <;> rfl

theorem PlungerType.rt : FieldRT (wEnum PlungerType.toU32) (getEnum PlungerType.ofU32) Any := enum_rt fun v _ => PlungerType.ofU32_toU32 v

theorem TriggerShape.ofU32_toU32 (v : TriggerShape) : TriggerShape.ofU32 v.toU32 = .ok v := by cases v <;> rfl

theorem TriggerShape.rt : FieldRT (wEnum TriggerShape.toU32) (getEnum TriggerShape.ofU32) Any := enum_rt fun v _ => TriggerShape.ofU32_toU32 v

theorem TextAlignment.ofU32_toU32 (v : TextAlignment) : TextAlignment.ofU32 v.toU32 = .ok v := by cases v <;> rfl

theorem TextAlignment.rt : FieldRT (wEnum TextAlignment.toU32) (getEnum TextAlignment.ofU32) Any := enum_rt fun v _ => TextAlignment.ofU32_toU32 v

theorem RampImageAlignment.ofU32_toU32 (v : RampImageAlignment) : RampImageAlignment.ofU32 v.toU32 = .ok v := by cases v <;> rfl

theorem RampImageAlignment.rt : FieldRT (wEnum RampImageAlignment.toU32) (getEnum RampImageAlignment.ofU32) Any := enum_rt fun v _ => RampImageAlignment.ofU32_toU32 v

theorem ShadowMode.ofU32_toU32 (v : ShadowMode) : ShadowMode.ofU32 v.toU32 = .ok v := by cases v <;> rfl

theorem ShadowMode.rt : FieldRT (wEnum ShadowMode.toU32) (getEnum ShadowMode.ofU32) Any := enum_rt fun v _ => ShadowMode.ofU32_toU32 v

theorem Fader.ofU32_toU32 (v : Fader) : Fader.ofU32 v.toU32 = .ok v := by cases v <;> rfl

theorem Fader.rt : FieldRT (wEnum Fader.toU32) (getEnum Fader.ofU32) Any := enum_rt fun v _ => Fader.ofU32_toU32 v

theorem ViewLayoutMode.ofU32_toU32 (v : ViewLayoutMode) : ViewLayoutMode.ofU32 v.toU32 = .ok v := by cases v <;> rfl

theorem ViewLayoutMode.rt : FieldRT (wEnum ViewLayoutMode.toU32) (getEnum ViewLayoutMode.ofU32) Any := enum_rt fun v _ => ViewLayoutMode.ofU32_toU32 v

theorem ToneMapper.ofU32_toU32 (v : ToneMapper) (h : v.WF) : ToneMapper.ofU32 v.toU32 = .ok v := by
  cases v with
  | Other n =>
    simp only [ToneMapper.WF] at h
    simp [ToneMapper.ofU32, ToneMapper.toU32, h]
  | _ => rfl

theorem ToneMapper.rt : FieldRT (wEnum ToneMapper.toU32) (getEnum ToneMapper.ofU32) ToneMapper.WF := enum_rt ToneMapper.ofU32_toU32

theorem ToneMapper.ofU32_wf (n : UInt32) (v : ToneMapper) (h : ToneMapper.ofU32 n = .ok v) : v.WF := by
  unfold ToneMapper.ofU32 at h
  repeat' split at h
  all_goals cases h
  all_goals simp_all [ToneMapper.WF]

theorem ToneMapper.gp : GP (getEnum ToneMapper.ofU32) ToneMapper.WF := enum_gp ToneMapper.ofU32_wf

theorem RenderProbeType.ofU32_toU32 (v : RenderProbeType) : RenderProbeType.ofU32 v.toU32 = .ok v := by cases v <;> rfl

theorem RenderProbeType.rt : FieldRT (wEnum RenderProbeType.toU32) (getEnum RenderProbeType.ofU32) Any := enum_rt fun v _ => RenderProbeType.ofU32_toU32 v

theorem ReflectionMode.ofU32_toU32 (v : ReflectionMode) : ReflectionMode.ofU32 v.toU32 = .ok v := by cases v <;> rfl

theorem ReflectionMode.rt : FieldRT (wEnum ReflectionMode.toU32) (getEnum ReflectionMode.ofU32) Any := enum_rt fun v _ => ReflectionMode.ofU32_toU32 v

end Vpin
