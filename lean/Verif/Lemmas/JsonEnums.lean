import Verif.Lemmas.JsonCodec
import Verif.Model.Enums
import Verif.Props.Enums
/-! Helper lemmas: the JSON forms of the enumerations. Generated by tools/gen_json.py. -/
namespace Vpin

theorem DecalType.codec_ok {keeps : F32 → Prop} : CodecOK keeps ⟨DecalType.toJ, DecalType.ofJ⟩ AnyP where
  back v _ := DecalType.jsonNames.back v
  valid v _ := by cases v <;> exact .str _
  notNull v _ e := by cases v <;> cases e

theorem SizingType.codec_ok {keeps : F32 → Prop} : CodecOK keeps ⟨SizingType.toJ, SizingType.ofJ⟩ AnyP where
  back v _ := SizingType.jsonNames.back v
  valid v _ := by cases v <;> exact .str _
  notNull v _ e := by cases v <;> cases e

theorem Filter.codec_ok {keeps : F32 → Prop} : CodecOK keeps ⟨Filter.toJ, Filter.ofJ⟩ AnyP where
  back v _ := Filter.jsonNames.back v
  valid v _ := by cases v <;> exact .str _
  notNull v _ e := by cases v <;> cases e

theorem RenderMode.codec_ok {keeps : F32 → Prop} : CodecOK keeps ⟨RenderMode.toJ, RenderMode.ofJ⟩ AnyP where
  back v _ := RenderMode.jsonNames.back v
  valid v _ := by cases v <;> exact .str _
  notNull v _ e := by cases v <;> cases e

theorem RampType.codec_ok {keeps : F32 → Prop} : CodecOK keeps ⟨RampType.toJ, RampType.ofJ⟩ AnyP where
  back v _ := RampType.jsonNames.back v
  valid v _ := by cases v <;> exact .str _
  notNull v _ e := by cases v <;> cases e

theorem SpaceReference.codec_ok {keeps : F32 → Prop} : CodecOK keeps ⟨SpaceReference.toJ, SpaceReference.ofJ⟩ AnyP where
  back v _ := SpaceReference.jsonNames.back v
  valid v _ := by cases v <;> exact .str _
  notNull v _ e := by cases v <;> cases e

theorem KickerType.codec_ok {keeps : F32 → Prop} : CodecOK keeps ⟨KickerType.toJ, KickerType.ofJ⟩ AnyP where
  back v _ := KickerType.jsonNames.back v
  valid v _ := by cases v <;> exact .str _
  notNull v _ e := by cases v <;> cases e

theorem TargetType.codec_ok {keeps : F32 → Prop} : CodecOK keeps ⟨TargetType.toJ, TargetType.ofJ⟩ AnyP where
  back v _ := TargetType.jsonNames.back v
  valid v _ := by cases v <;> exact .str _
  notNull v _ e := by cases v <;> cases e

theorem GateType.codec_ok {keeps : F32 → Prop} : CodecOK keeps ⟨GateType.toJ, GateType.ofJ⟩ GateType.WF where
  back v h := GateType.jsonBack v h
  valid v _ := by
    cases v
    case Unknown n _ => exact .num _ (by have := n.toNat_lt; omega)
    all_goals exact .str _
  notNull v _ e := by cases v <;> cases e

theorem PlungerType.codec_ok {keeps : F32 → Prop} : CodecOK keeps ⟨PlungerType.toJ, PlungerType.ofJ⟩ AnyP where
  back v _ := PlungerType.jsonNames.back v
  valid v _ := by cases v <;> exact .str _
  notNull v _ e := by cases v <;> cases e

theorem TriggerShape.codec_ok {keeps : F32 → Prop} : CodecOK keeps ⟨TriggerShape.toJ, TriggerShape.ofJ⟩ AnyP where
  back v _ := TriggerShape.jsonNames.back v
  valid v _ := by cases v <;> exact .str _
  notNull v _ e := by cases v <;> cases e

theorem TextAlignment.codec_ok {keeps : F32 → Prop} : CodecOK keeps ⟨TextAlignment.toJ, TextAlignment.ofJ⟩ AnyP where
  back v _ := TextAlignment.jsonNames.back v
  valid v _ := by cases v <;> exact .str _
  notNull v _ e := by cases v <;> cases e

theorem RampImageAlignment.codec_ok {keeps : F32 → Prop} : CodecOK keeps ⟨RampImageAlignment.toJ, RampImageAlignment.ofJ⟩ AnyP where
  back v _ := RampImageAlignment.jsonNames.back v
  valid v _ := by cases v <;> exact .str _
  notNull v _ e := by cases v <;> cases e

theorem ShadowMode.codec_ok {keeps : F32 → Prop} : CodecOK keeps ⟨ShadowMode.toJ, ShadowMode.ofJ⟩ AnyP where
  back v _ := ShadowMode.jsonNames.back v
  valid v _ := by cases v <;> exact .str _
  notNull v _ e := by cases v <;> cases e

theorem Fader.codec_ok {keeps : F32 → Prop} : CodecOK keeps ⟨Fader.toJ, Fader.ofJ⟩ AnyP where
  back v _ := Fader.jsonNames.back v
  valid v _ := by cases v <;> exact .str _
  notNull v _ e := by cases v <;> cases e

theorem ViewLayoutMode.codec_ok {keeps : F32 → Prop} : CodecOK keeps ⟨ViewLayoutMode.toJ, ViewLayoutMode.ofJ⟩ AnyP where
  back v _ := ViewLayoutMode.jsonNames.back v
  valid v _ := by cases v <;> exact .str _
  notNull v _ e := by cases v <;> cases e

theorem ToneMapper.codec_ok {keeps : F32 → Prop} : CodecOK keeps ⟨ToneMapper.toJ, ToneMapper.ofJ⟩ ToneMapper.WF where
  back v h := ToneMapper.jsonBack v h
  valid v _ := by
    cases v
    case Other n _ => exact .num _ (by have := n.toNat_lt; omega)
    all_goals exact .str _
  notNull v _ e := by cases v <;> cases e

theorem MaterialType.codec_ok {keeps : F32 → Prop} : CodecOK keeps ⟨MaterialType.toJ, MaterialType.ofJ⟩ AnyP where
  back v _ := MaterialType.jsonNames.back v
  valid v _ := by cases v <;> exact .str _
  notNull v _ e := by cases v <;> cases e

theorem RenderProbeType.codec_ok {keeps : F32 → Prop} : CodecOK keeps ⟨RenderProbeType.toJ, RenderProbeType.ofJ⟩ AnyP where
  back v _ := RenderProbeType.jsonNames.back v
  valid v _ := by cases v <;> exact .str _
  notNull v _ e := by cases v <;> cases e

theorem ReflectionMode.codec_ok {keeps : F32 → Prop} : CodecOK keeps ⟨ReflectionMode.toJ, ReflectionMode.ofJ⟩ AnyP where
  back v _ := ReflectionMode.jsonNames.back v
  valid v _ := by cases v <;> exact .str _
  notNull v _ e := by cases v <;> cases e

end Vpin
