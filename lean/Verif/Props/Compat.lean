import Verif.Spec.Compat
/-
C30: the rules for tables saved before 10.8.
-/
namespace Vpin

theorem isPre108_iff (v : Version) : isPre108 v = true ↔ Old v := by
  unfold isPre108 Old
  rw [decide_eq_true_iff, UInt32.lt_iff_toNat_lt]
  show _ < 1080 ↔ _
  omega

theorem isPre108_false (v : Version) : isPre108 v = false ↔ ¬ Old v := by
  rw [← isPre108_iff]; simp

theorem isPlayfield_iff (p : Primitive) : p.isPlayfield = true ↔ NamedPlayfield p := by
  unfold Primitive.isPlayfield NamedPlayfield eqIgnoreAsciiCase
  rw [beq_iff_eq]
  have : ("playfield_mesh".toList).map asciiLower = "playfield_mesh".toList := by decide
  rw [this]

/-- **C30.** From 10.8 on every value is the stored one (the glass falls back to its top). -/
theorem C30_new_tables_stored (v : Version) (hv : ¬ Old v) (p : Primitive) (m : Option (Bool × F32)) (l : Light)
    (top : F32) (bottom : Option F32) :
    primitiveIsVisible p v = p.is_visible ∧ primitiveStaticRendering p v = p.static_rendering ∧
    primitiveDepthBias p v = p.depth_bias ∧ primitiveBackfacesEnabled p v = p.backfaces_enabled ∧
    primitiveDisableLightingBelow p m v = p.disable_lighting_below ∧ lightHeight l v = l.height ∧
    lightShowBulbMesh l v = l.show_bulb_mesh ∧ lightShowReflectionOnBall l v = l.show_reflection_on_ball ∧
    (∀ b, bottom = some b → glassBottomHeight top bottom v = b) ∧
    (bottom = none → glassBottomHeight top bottom v = top) := by
  have h := (isPre108_false v).2 hv
  unfold primitiveIsVisible primitiveStaticRendering primitiveDepthBias primitiveBackfacesEnabled
    primitiveDisableLightingBelow lightHeight lightShowBulbMesh lightShowReflectionOnBall glassBottomHeight
  simp only [h, Bool.false_and, Bool.false_eq_true, if_false, true_and]
  exact ⟨fun b hb => by rw [hb]; rfl, fun hb => by rw [hb]; rfl⟩

/-- **C30.** In older tables the playfield is visible, static, far back, without back faces and unlit from
below, whatever is stored. -/
theorem C30_old_playfield (v : Version) (hv : Old v) (p : Primitive) (hp : NamedPlayfield p) (m : Option (Bool × F32)) :
    primitiveIsVisible p v = true ∧ primitiveStaticRendering p v = true ∧
    isHundredThousand (primitiveDepthBias p v) ∧ primitiveBackfacesEnabled p v = some false ∧
    ∃ x, primitiveDisableLightingBelow p m v = some x ∧ isOne x := by
  have h := (isPre108_iff v).2 hv
  have h2 := (isPlayfield_iff p).2 hp
  unfold primitiveIsVisible primitiveStaticRendering primitiveDepthBias primitiveBackfacesEnabled
    primitiveDisableLightingBelow
  simp only [h, h2, Bool.and_self, if_true, true_and]
  exact ⟨by unfold isHundredThousand; decide, _, rfl, by unfold isOne; decide⟩

/-- **C30.** In older tables every other primitive has its stored values, except that an opaque material keeps
light from below away. -/
theorem C30_old_other (v : Version) (hv : Old v) (p : Primitive) (hp : ¬ NamedPlayfield p) :
    primitiveIsVisible p v = p.is_visible ∧ primitiveStaticRendering p v = p.static_rendering ∧
    primitiveDepthBias p v = p.depth_bias ∧ primitiveBackfacesEnabled p v = p.backfaces_enabled ∧
    primitiveDisableLightingBelow p none v = p.disable_lighting_below ∧
    (∀ active opacity, (active = false ∨ isOne opacity) →
      ∃ x, primitiveDisableLightingBelow p (some (active, opacity)) v = some x ∧ isOne x) ∧
    (∀ opacity, ¬ isOne opacity →
      primitiveDisableLightingBelow p (some (true, opacity)) v = p.disable_lighting_below) := by
  have h := (isPre108_iff v).2 hv
  have h2 : p.isPlayfield = false := by
    cases hq : p.isPlayfield with
    | false => rfl
    | true => exact absurd ((isPlayfield_iff p).1 hq) hp
  have one : ∀ x : F32, isOne x ↔ x = 0x3f800000 := by
    intro x
    unfold isOne
    rw [← UInt32.toNat_inj]
    rfl
  unfold primitiveIsVisible primitiveStaticRendering primitiveDepthBias primitiveBackfacesEnabled
    primitiveDisableLightingBelow
  simp only [h, h2, Bool.and_false, Bool.false_eq_true, if_false, if_true, true_and]
  refine ⟨?_, ?_⟩
  · rintro a o (rfl | ho)
    · exact ⟨_, rfl, (one _).2 rfl⟩
    · rw [(one o).1 ho]
      exact ⟨0x3f800000, by simp, (one _).2 rfl⟩
  · intro o ho
    have : (o == 0x3f800000) = false := by
      rw [beq_eq_false_iff_ne]
      exact fun h' => ho ((one o).2 h')
    simp [this]

/-- **C30.** Lights of older tables: bulbs at the height of their halo, others at height 0; a bulb mesh only for
visible bulbs that have one; reflections only for bulbs. -/
theorem C30_old_lights (v : Version) (hv : Old v) (l : Light) :
    (l.is_bulb_light = true → lightHeight l v = some l.bulb_halo_height) ∧
    (l.is_bulb_light = false → lightHeight l v = some 0) ∧
    (lightShowBulbMesh l v = true ↔ l.is_bulb_light = true ∧ l.visible ≠ some false ∧ l.show_bulb_mesh = true) ∧
    (lightShowReflectionOnBall l v = true ↔ l.is_bulb_light = true ∧ l.show_reflection_on_ball = true) := by
  have h := (isPre108_iff v).2 hv
  unfold lightHeight lightShowBulbMesh lightShowReflectionOnBall
  simp only [h, if_true, Bool.true_and]
  refine ⟨fun hb => by simp [hb], fun hb => by simp [hb], ?_, ?_⟩
  · cases l.is_bulb_light <;> rcases l.visible with _ | _ | _ <;> cases l.show_bulb_mesh <;> decide
  · cases l.is_bulb_light <;> cases l.show_reflection_on_ball <;> decide

/-- **C30.** The glass of older tables is horizontal. -/
theorem C30_old_glass (v : Version) (hv : Old v) (top : F32) (bottom : Option F32) :
    glassBottomHeight top bottom v = top := by
  unfold glassBottomHeight
  rw [(isPre108_iff v).2 hv]; rfl

/-- both sides of the boundary, and a playfield in mixed case -/
example : Old ⟨1079⟩ ∧ ¬ Old ⟨1080⟩ ∧
    NamedPlayfield { Primitive.default with name := "Playfield_Mesh".toList } ∧
    ¬ NamedPlayfield { Primitive.default with name := "playfield".toList } := by
  unfold Old NamedPlayfield
  decide +kernel

end Vpin
