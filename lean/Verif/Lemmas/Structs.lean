import Verif.Lemmas.Enums
import Verif.Lemmas.Tame
import Verif.Lemmas.ItemData
import Verif.Lemmas.Color
import Verif.Props.Color
import Verif.Spec.Structs
/-!
Collections, custom info tags, render probes and materials.
-/
namespace Vpin

/-! ### Repeated records -/

theorem FieldRT.list {α : Type} {w : Tag → α → WOp} {g : R α} {P : α → Prop} (h : FieldRT w g P)
    {σ : Type} {hs : Handlers σ} {t : Tag} (upd : List α → σ → σ)
    (hl : hs.lookup t = some (fld g fun v s => upd [v] s))
    (hc : ∀ v l s, upd l (upd [v] s) = upd (v :: l) s) (hn : ∀ s, upd [] s = s)
    {l : List α} {s : σ} (hp : ∀ v ∈ l, P v)
    (hv : ValidTag t := by decide) (hne : t ≠ ENDB := by decide) :
    OReads hs (l.map (w t)) s (app upd l s) := by
  revert s hp
  induction l with
  | nil => intro s _; show OReads hs [] s (upd [] s); rw [hn]; exact OReads.nil hs s
  | cons a l ih =>
    intro s hp
    have h1 := h σ hs (fun v s => upd [v] s) s t a hv hne (hp a (by simp)) hl
    have h2 := ih (s := upd [a] s) fun v hm => hp v (by simp [hm])
    have := h1.append h2
    refine OReads.congr this ?_
    exact hc a l s

/-! ### Collections -/

theorem Collection.reads {s : Collection} (h : s.WF) :
    OReads Collection.arms s.ops Collection.init s := by
  unfold Collection.ops
  refine .segTo ⟨s.name, [], false, false, false⟩ (wide_rt.req h.name rfl) rfl ?_
  refine .segTo ⟨s.name, s.items, false, false, false⟩
    (wide_rt.list (fun l (s : Collection) => { s with items := s.items ++ l }) rfl
      (fun v l s => by simp) (fun s => by simp) h.items) rfl ?_
  refine .segTo ⟨s.name, s.items, s.fire_events, false, false⟩ (bool_rt.req trivial rfl) rfl ?_
  refine .segTo ⟨s.name, s.items, s.fire_events, s.stop_single_events, false⟩
    (bool_rt.req trivial rfl) rfl ?_
  refine .segTo ⟨s.name, s.items, s.fire_events, s.stop_single_events, s.group_elements⟩
    (bool_rt.req trivial rfl) rfl ?_
  exact .done rfl

theorem Collection.arms_inv : ArmsInv Collection.WF Collection.arms := by
  unfold Collection.arms
  exact (.cons (.fld wide_gp fun _ _ h hv => ⟨hv, h.items⟩) <|
    .cons (.fld wide_gp fun _ _ h hv => ⟨h.name, forall_append h.items hv⟩) <|
    .cons (.fld GP.any fun _ _ h _ => ⟨h.name, h.items⟩) <|
    .cons (.fld GP.any fun _ _ h _ => ⟨h.name, h.items⟩) <|
    .cons (.fld GP.any fun _ _ h _ => ⟨h.name, h.items⟩) .nil)

theorem Collection.init_wf : Collection.WF Collection.init := ⟨by decide, by intro p hp; cases hp⟩

theorem Collection.arms_tame : ArmsTame Collection.arms := by
  unfold Collection.arms
  exact (.cons (fun _ => wide_tame.fld) <| .cons (fun _ => wide_tame.fld) <|
    .cons (fun _ => bool_tame.fld) <| .cons (fun _ => bool_tame.fld) <|
    .cons (fun _ => bool_tame.fld) .nil)

/-! ### Custom info tags -/

theorem CustomInfoTags.reads {s : CustomInfoTags} (h : CustomInfoTags.WF s) :
    OReads CustomInfoTags.arms (CustomInfoTags.ops s) [] s :=
  string_rt.list (fun l (s : List Str) => s ++ l) rfl (fun v l s => by simp) (fun s => by simp) h

theorem CustomInfoTags.arms_inv : ArmsInv CustomInfoTags.WF CustomInfoTags.arms := by
  unfold CustomInfoTags.arms
  exact (.cons (.fld string_gp fun _ _ h hv => forall_append h hv) <|
    .cons (.fld GP.any fun _ _ h _ => h) .nil)

theorem CustomInfoTags.init_wf : CustomInfoTags.WF [] := by intro p hp; cases hp

theorem CustomInfoTags.arms_tame : ArmsTame CustomInfoTags.arms := by
  unfold CustomInfoTags.arms
  exact (.cons (fun _ => string_tame.fld) <| .cons (fun _ => data_tame.fld) .nil)

/-! ### Render probes -/

theorem vertex4d_rt : FieldRT wVertex4D getVertex4D Any := by
  refine FieldRT.sized (fun v _ => ?_) (fun v _ => (by decide : 4 + 16 < 2 ^ 32))
  rw [List.append_assoc, List.append_assoc]
  exact RT.bind (getF32_rt v.x) (RT.bind (getF32_rt v.y) (RT.bind (getF32_rt v.z)
    (RT.map (getF32_rt v.w))))

theorem vertex4d_tame : Tame getVertex4D :=
  f32_tame.bind fun _ => f32_tame.bind fun _ => f32_tame.bind fun _ => f32_tame.bind fun _ =>
    Tame.pure _

theorem RenderProbe.reads {s : RenderProbe} (h : s.WF) :
    OReads RenderProbe.arms s.ops RenderProbe.default s := by
  unfold RenderProbe.ops
  refine .segTo ⟨s.type_, [], 0, none, ⟨0, 0, 0, 0⟩, .None, none⟩
    (RenderProbeType.rt.req trivial rfl) rfl ?_
  refine .segTo ⟨s.type_, s.name, 0, none, ⟨0, 0, 0, 0⟩, .None, none⟩ (string_rt.req h rfl) rfl ?_
  refine .segTo ⟨s.type_, s.name, s.roughness, none, ⟨0, 0, 0, 0⟩, .None, none⟩
    (u32_rt.req trivial rfl) rfl ?_
  refine .segTo ⟨s.type_, s.name, s.roughness, s.roughness_clear, ⟨0, 0, 0, 0⟩, .None, none⟩
    (u32_rt.opt (fun v (s : RenderProbe) => { s with roughness_clear := v }) (fun _ _ => trivial)
      rfl rfl) rfl ?_
  refine .segTo ⟨s.type_, s.name, s.roughness, s.roughness_clear, s.reflection_plane, .None, none⟩
    (vertex4d_rt.req trivial rfl) rfl ?_
  refine .segTo ⟨s.type_, s.name, s.roughness, s.roughness_clear, s.reflection_plane,
    s.reflection_mode, none⟩ (ReflectionMode.rt.req trivial rfl) rfl ?_
  refine .segTo ⟨s.type_, s.name, s.roughness, s.roughness_clear, s.reflection_plane,
    s.reflection_mode, s.disable_light_reflection⟩
    (bool_rt.opt (fun v (s : RenderProbe) => { s with disable_light_reflection := v })
      (fun _ _ => trivial) rfl rfl) rfl ?_
  exact .done rfl

theorem RenderProbe.arms_inv : ArmsInv RenderProbe.WF RenderProbe.arms := by
  unfold RenderProbe.arms
  exact (.cons (.fld GP.any fun _ _ h _ => h) <|
    .cons (.fld string_gp fun _ _ _ hv => hv) <|
    .cons (.fld GP.any fun _ _ h _ => h) <|
    .cons (.fld GP.any fun _ _ h _ => h) <|
    .cons (.fld GP.any fun _ _ h _ => h) <|
    .cons (.fld GP.any fun _ _ h _ => h) <|
    .cons (.fld GP.any fun _ _ h _ => h) .nil)

theorem RenderProbe.init_wf : RenderProbe.WF RenderProbe.default := by decide

theorem RenderProbe.arms_tame : ArmsTame RenderProbe.arms := by
  unfold RenderProbe.arms
  exact (.cons (fun _ => enum_tame.fld) <| .cons (fun _ => string_tame.fld) <|
    .cons (fun _ => u32_tame.fld) <| .cons (fun _ => u32_tame.fld) <|
    .cons (fun _ => vertex4d_tame.fld) <| .cons (fun _ => enum_tame.fld) <|
    .cons (fun _ => bool_tame.fld) .nil)

theorem RenderProbeWithGarbage.write_ok {s : RenderProbeWithGarbage} (h : s.render_probe.WF) :
    s.write = .ok (bytesOf s.render_probe.ops ++ endbBytes ++ s.trailing_data) := by
  have hw := writeBiff_ok s.render_probe.ops (RenderProbe.reads h).good
  unfold writeBiff at hw
  unfold RenderProbeWithGarbage.write
  cases h1 : runOps {} s.render_probe.ops with
  | error e => rw [h1] at hw; cases hw
  | ok w =>
    rw [h1] at hw
    simp only at hw ⊢
    cases h2 : w.close true with
    | error e => rw [h2] at hw; cases hw
    | ok w' =>
      rw [h2] at hw
      simp only at hw ⊢
      injection hw with hw
      rw [← hw]; rfl

theorem RenderProbeWithGarbage.read_bytes {p : RenderProbe} (h : p.WF) (rest : Bytes) :
    RenderProbeWithGarbage.read (bytesOf p.ops ++ endbBytes ++ rest) = .ok ⟨p, rest⟩ := by
  have := loop_stream (RenderProbe.reads h).reads rest 0 false []
    ((bytesOf p.ops ++ (endbBytes ++ rest)).length + 1) (by simp) (.inl rfl)
  unfold RenderProbeWithGarbage.read
  rw [List.append_assoc]
  simp only [readWith, Rd.new, this]
  rfl

/-! ### Materials -/

theorem enumI_rt {α : Type} {toI32 : α → Int32} {ofI32 : Int32 → Res α}
    (h : ∀ v, ofI32 (toI32 v) = .ok v) : FieldRT (wEnumI toI32) (getEnumI ofI32) Any := by
  refine FieldRT.sized (pay := fun v => le32 (toI32 v).toUInt32) (fun v _ => ?_)
    (fun v _ => le32_small _)
  have := RT.bind (k := fun n => R.ofRes (ofI32 n)) (getI32_rt (toI32 v)) (RT.ofRes (h v))
  rwa [List.append_nil] at this

theorem MaterialType.rt : FieldRT (wEnumI MaterialType.toI32) (getEnumI MaterialType.ofI32) Any :=
  enumI_rt fun v => by cases v <;> rfl

theorem enumI_tame {α : Type} {ofI32 : Int32 → Res α} : Tame (getEnumI ofI32) :=
  i32_tame.bind fun _ => Tame.ofRes _

theorem Material.reads {s : Material} (h : s.WF) : OReads Material.arms s.ops Material.default s := by
  unfold Material.ops
  refine .segTo ⟨Material.default.name, s.type_, Material.default.wrap_lighting, Material.default.roughness, Material.default.glossy_image_lerp, Material.default.thickness, Material.default.edge, Material.default.edge_alpha, Material.default.opacity, Material.default.base_color, Material.default.glossy_color, Material.default.clearcoat_color, Material.default.opacity_active, Material.default.elasticity, Material.default.elasticity_falloff, Material.default.friction, Material.default.scatter_angle, Material.default.refraction_tint⟩
    (MaterialType.rt.req trivial rfl) rfl ?_
  refine .segTo ⟨s.name, s.type_, Material.default.wrap_lighting, Material.default.roughness, Material.default.glossy_image_lerp, Material.default.thickness, Material.default.edge, Material.default.edge_alpha, Material.default.opacity, Material.default.base_color, Material.default.glossy_color, Material.default.clearcoat_color, Material.default.opacity_active, Material.default.elasticity, Material.default.elasticity_falloff, Material.default.friction, Material.default.scatter_angle, Material.default.refraction_tint⟩
    (string_rt.req h rfl) rfl ?_
  refine .segTo ⟨s.name, s.type_, s.wrap_lighting, Material.default.roughness, Material.default.glossy_image_lerp, Material.default.thickness, Material.default.edge, Material.default.edge_alpha, Material.default.opacity, Material.default.base_color, Material.default.glossy_color, Material.default.clearcoat_color, Material.default.opacity_active, Material.default.elasticity, Material.default.elasticity_falloff, Material.default.friction, Material.default.scatter_angle, Material.default.refraction_tint⟩
    (f32_rt.req trivial rfl) rfl ?_
  refine .segTo ⟨s.name, s.type_, s.wrap_lighting, s.roughness, Material.default.glossy_image_lerp, Material.default.thickness, Material.default.edge, Material.default.edge_alpha, Material.default.opacity, Material.default.base_color, Material.default.glossy_color, Material.default.clearcoat_color, Material.default.opacity_active, Material.default.elasticity, Material.default.elasticity_falloff, Material.default.friction, Material.default.scatter_angle, Material.default.refraction_tint⟩
    (f32_rt.req trivial rfl) rfl ?_
  refine .segTo ⟨s.name, s.type_, s.wrap_lighting, s.roughness, s.glossy_image_lerp, Material.default.thickness, Material.default.edge, Material.default.edge_alpha, Material.default.opacity, Material.default.base_color, Material.default.glossy_color, Material.default.clearcoat_color, Material.default.opacity_active, Material.default.elasticity, Material.default.elasticity_falloff, Material.default.friction, Material.default.scatter_angle, Material.default.refraction_tint⟩
    (f32_rt.req trivial rfl) rfl ?_
  refine .segTo ⟨s.name, s.type_, s.wrap_lighting, s.roughness, s.glossy_image_lerp, s.thickness, Material.default.edge, Material.default.edge_alpha, Material.default.opacity, Material.default.base_color, Material.default.glossy_color, Material.default.clearcoat_color, Material.default.opacity_active, Material.default.elasticity, Material.default.elasticity_falloff, Material.default.friction, Material.default.scatter_angle, Material.default.refraction_tint⟩
    (f32_rt.req trivial rfl) rfl ?_
  refine .segTo ⟨s.name, s.type_, s.wrap_lighting, s.roughness, s.glossy_image_lerp, s.thickness, s.edge, Material.default.edge_alpha, Material.default.opacity, Material.default.base_color, Material.default.glossy_color, Material.default.clearcoat_color, Material.default.opacity_active, Material.default.elasticity, Material.default.elasticity_falloff, Material.default.friction, Material.default.scatter_angle, Material.default.refraction_tint⟩
    (f32_rt.req trivial rfl) rfl ?_
  refine .segTo ⟨s.name, s.type_, s.wrap_lighting, s.roughness, s.glossy_image_lerp, s.thickness, s.edge, s.edge_alpha, Material.default.opacity, Material.default.base_color, Material.default.glossy_color, Material.default.clearcoat_color, Material.default.opacity_active, Material.default.elasticity, Material.default.elasticity_falloff, Material.default.friction, Material.default.scatter_angle, Material.default.refraction_tint⟩
    (f32_rt.req trivial rfl) rfl ?_
  refine .segTo ⟨s.name, s.type_, s.wrap_lighting, s.roughness, s.glossy_image_lerp, s.thickness, s.edge, s.edge_alpha, s.opacity, Material.default.base_color, Material.default.glossy_color, Material.default.clearcoat_color, Material.default.opacity_active, Material.default.elasticity, Material.default.elasticity_falloff, Material.default.friction, Material.default.scatter_angle, Material.default.refraction_tint⟩
    (f32_rt.req trivial rfl) rfl ?_
  refine .segTo ⟨s.name, s.type_, s.wrap_lighting, s.roughness, s.glossy_image_lerp, s.thickness, s.edge, s.edge_alpha, s.opacity, s.base_color, Material.default.glossy_color, Material.default.clearcoat_color, Material.default.opacity_active, Material.default.elasticity, Material.default.elasticity_falloff, Material.default.friction, Material.default.scatter_angle, Material.default.refraction_tint⟩
    (color_rt.req trivial rfl) rfl ?_
  refine .segTo ⟨s.name, s.type_, s.wrap_lighting, s.roughness, s.glossy_image_lerp, s.thickness, s.edge, s.edge_alpha, s.opacity, s.base_color, s.glossy_color, Material.default.clearcoat_color, Material.default.opacity_active, Material.default.elasticity, Material.default.elasticity_falloff, Material.default.friction, Material.default.scatter_angle, Material.default.refraction_tint⟩
    (color_rt.req trivial rfl) rfl ?_
  refine .segTo ⟨s.name, s.type_, s.wrap_lighting, s.roughness, s.glossy_image_lerp, s.thickness, s.edge, s.edge_alpha, s.opacity, s.base_color, s.glossy_color, s.clearcoat_color, Material.default.opacity_active, Material.default.elasticity, Material.default.elasticity_falloff, Material.default.friction, Material.default.scatter_angle, Material.default.refraction_tint⟩
    (color_rt.req trivial rfl) rfl ?_
  refine .segTo ⟨s.name, s.type_, s.wrap_lighting, s.roughness, s.glossy_image_lerp, s.thickness, s.edge, s.edge_alpha, s.opacity, s.base_color, s.glossy_color, s.clearcoat_color, Material.default.opacity_active, Material.default.elasticity, Material.default.elasticity_falloff, Material.default.friction, Material.default.scatter_angle, s.refraction_tint⟩
    (color_rt.req trivial rfl) rfl ?_
  refine .segTo ⟨s.name, s.type_, s.wrap_lighting, s.roughness, s.glossy_image_lerp, s.thickness, s.edge, s.edge_alpha, s.opacity, s.base_color, s.glossy_color, s.clearcoat_color, s.opacity_active, Material.default.elasticity, Material.default.elasticity_falloff, Material.default.friction, Material.default.scatter_angle, s.refraction_tint⟩
    (bool_rt.req trivial rfl) rfl ?_
  refine .segTo ⟨s.name, s.type_, s.wrap_lighting, s.roughness, s.glossy_image_lerp, s.thickness, s.edge, s.edge_alpha, s.opacity, s.base_color, s.glossy_color, s.clearcoat_color, s.opacity_active, s.elasticity, Material.default.elasticity_falloff, Material.default.friction, Material.default.scatter_angle, s.refraction_tint⟩
    (f32_rt.req trivial rfl) rfl ?_
  refine .segTo ⟨s.name, s.type_, s.wrap_lighting, s.roughness, s.glossy_image_lerp, s.thickness, s.edge, s.edge_alpha, s.opacity, s.base_color, s.glossy_color, s.clearcoat_color, s.opacity_active, s.elasticity, s.elasticity_falloff, Material.default.friction, Material.default.scatter_angle, s.refraction_tint⟩
    (f32_rt.req trivial rfl) rfl ?_
  refine .segTo ⟨s.name, s.type_, s.wrap_lighting, s.roughness, s.glossy_image_lerp, s.thickness, s.edge, s.edge_alpha, s.opacity, s.base_color, s.glossy_color, s.clearcoat_color, s.opacity_active, s.elasticity, s.elasticity_falloff, s.friction, Material.default.scatter_angle, s.refraction_tint⟩
    (f32_rt.req trivial rfl) rfl ?_
  refine .segTo ⟨s.name, s.type_, s.wrap_lighting, s.roughness, s.glossy_image_lerp, s.thickness, s.edge, s.edge_alpha, s.opacity, s.base_color, s.glossy_color, s.clearcoat_color, s.opacity_active, s.elasticity, s.elasticity_falloff, s.friction, s.scatter_angle, s.refraction_tint⟩
    (f32_rt.req trivial rfl) rfl ?_
  exact .done rfl

theorem Material.arms_inv : ArmsInv Material.WF Material.arms := by
  unfold Material.arms
  exact (.cons (.fld GP.any fun _ _ h _ => h) <|
    .cons (.fld string_gp fun _ _ _ hv => hv) <|
    .cons (.fld GP.any fun _ _ h _ => h) <|
    .cons (.fld GP.any fun _ _ h _ => h) <|
    .cons (.fld GP.any fun _ _ h _ => h) <|
    .cons (.fld GP.any fun _ _ h _ => h) <|
    .cons (.fld GP.any fun _ _ h _ => h) <|
    .cons (.fld GP.any fun _ _ h _ => h) <|
    .cons (.fld GP.any fun _ _ h _ => h) <|
    .cons (.fld GP.any fun _ _ h _ => h) <|
    .cons (.fld GP.any fun _ _ h _ => h) <|
    .cons (.fld GP.any fun _ _ h _ => h) <|
    .cons (.fld GP.any fun _ _ h _ => h) <|
    .cons (.fld GP.any fun _ _ h _ => h) <|
    .cons (.fld GP.any fun _ _ h _ => h) <|
    .cons (.fld GP.any fun _ _ h _ => h) <|
    .cons (.fld GP.any fun _ _ h _ => h) <|
    .cons (.fld GP.any fun _ _ h _ => h) .nil)

theorem Material.init_wf : Material.WF Material.default := by decide

theorem Material.arms_tame : ArmsTame Material.arms := by
  unfold Material.arms
  exact (.cons (fun _ => enumI_tame.fld) <|
    .cons (fun _ => string_tame.fld) <|
    .cons (fun _ => f32_tame.fld) <|
    .cons (fun _ => f32_tame.fld) <|
    .cons (fun _ => f32_tame.fld) <|
    .cons (fun _ => f32_tame.fld) <|
    .cons (fun _ => f32_tame.fld) <|
    .cons (fun _ => f32_tame.fld) <|
    .cons (fun _ => f32_tame.fld) <|
    .cons (fun _ => color_tame.fld) <|
    .cons (fun _ => color_tame.fld) <|
    .cons (fun _ => color_tame.fld) <|
    .cons (fun _ => color_tame.fld) <|
    .cons (fun _ => bool_tame.fld) <|
    .cons (fun _ => f32_tame.fld) <|
    .cons (fun _ => f32_tame.fld) <|
    .cons (fun _ => f32_tame.fld) <|
    .cons (fun _ => f32_tame.fld) .nil)

/-! ### Fixed-size records -/

/-- `g` reads `p` as `v` and stops behind it -/
def BT {α : Type} (g : BM α) (p : Bytes) (v : α) : Prop := ∀ rest, g (p ++ rest) = .ok (v, rest)

theorem BT.bind {α β : Type} {g : BM α} {k : α → BM β} {p q : Bytes} {v : α} {u : β}
    (hg : BT g p v) (hk : BT (k v) q u) : BT (g >>= k) (p ++ q) u := by
  intro rest
  have h1 := hg (q ++ rest)
  show (do let (a, s') ← g (p ++ q ++ rest); k a s') = _
  rw [List.append_assoc, h1]
  exact hk rest

theorem BT.pure {α : Type} (v : α) : BT (Pure.pure v) [] v := fun _ => rfl

theorem BT.last {α β : Type} {g : BM α} {k : α → β} {p : Bytes} {v : α}
    (hg : BT g p v) : BT (g >>= fun a => Pure.pure (k a)) p (k v) := by
  have := BT.bind (k := fun a => Pure.pure (k a)) hg (BT.pure (k v))
  rwa [List.append_nil] at this

theorem bmTake_rt (p : Bytes) {n : Nat} (h : p.length = n) : BT (bmTake n) p p := by
  intro rest
  unfold bmTake
  rw [if_pos (by simp; omega)]
  simp [← h]

theorem bmU32_rt (x : UInt32) : BT bmU32 (le32 x) x := by
  have := BT.last (k := ofLe32) (bmTake_rt (le32 x) rfl)
  rwa [ofLe32_le32] at this

theorem bmU8_rt (x : UInt8) : BT bmU8 [x] x := by
  have := BT.last (k := fun d => UInt8.ofNat (leNat d)) (bmTake_rt [x] rfl)
  have e : UInt8.ofNat (leNat [x]) = x := by simp [leNat]
  rwa [e] at this

theorem cstring_bytes {s : Str} (h : Name31 s) :
    ∃ d, encodeLatin1 s = .ok d ∧ d.length ≤ 31 ∧ 0 ∉ d ∧
      paddedCstring s = .ok (d ++ [0] ++ List.replicate (31 - d.length) 0) := by
  obtain ⟨d, hd⟩ := (encodeLatin1_ok_iff s).2 h.1
  have hl : d.length ≤ 31 := by rw [encodeLatin1_length hd]; exact h.2.2
  refine ⟨d, hd, hl, nulFree_encode hd h.2.1, ?_⟩
  simp only [paddedCstring, hd, maxNameBuffer]
  rw [List.take_of_length_le (by omega)]
  have : 32 - d.length - 1 = 31 - d.length := by omega
  rw [this]

theorem bmPaddedCstring_rt {s : Str} (h : Name31 s) :
    ∃ p, paddedCstring s = .ok p ∧ p.length = 32 ∧ BT bmPaddedCstring p s := by
  obtain ⟨d, hd, hl, h0, hp⟩ := cstring_bytes h
  refine ⟨_, hp, by simp; omega, ?_⟩
  have hlen : (d ++ [0] ++ List.replicate (31 - d.length) (0 : UInt8)).length = maxNameBuffer := by
    simp [maxNameBuffer]; omega
  intro rest
  have h1 := bmTake_rt (d ++ [0] ++ List.replicate (31 - d.length) 0) hlen rest
  show (do let (a, s') ← bmTake maxNameBuffer _; (if 0 ∈ a then _ else _ : BM Str) s') = _
  rw [h1]
  have hm : (0 : UInt8) ∈ d ++ [0] ++ List.replicate (31 - d.length) 0 := by simp
  have hc : cutNul (d ++ [0] ++ List.replicate (31 - d.length) 0) = d := by
    rw [List.append_assoc]; exact cutNul_append_zero h0 _
  have key : (if (0 : UInt8) ∈ d ++ [0] ++ List.replicate (31 - d.length) 0
      then (Pure.pure (decodeLatin1 (cutNul (d ++ [0] ++ List.replicate (31 - d.length) 0))) : BM Str)
      else fun _ => .error .panic) = Pure.pure s := by
    rw [if_pos hm, hc, decodeLatin1_of_encode hd]
  exact congrFun key rest

theorem SaveMaterial.bt {s : SaveMaterial} (h : s.WF) :
    ∃ p, s.bytes = .ok p ∧ p.length = 76 ∧ BT bmSaveMaterial p s := by
  obtain ⟨n, hn, hl, hb⟩ := bmPaddedCstring_rt h
  refine ⟨_, by simp only [SaveMaterial.bytes, hn]; rfl, by simp [hl], ?_⟩
  have e : s = ⟨s.name, Color.fromWinColor s.base_color.toWinColor,
      Color.fromWinColor s.glossy_color.toWinColor,
      Color.fromWinColor s.clearcoat_color.toWinColor, s.wrap_lighting,
      (if s.is_metal then (1 : UInt8) else 0) != 0, s.roughness, s.glossy_image_lerp, s.edge,
      s.thickness, s.opacity, s.opacity_active_edge_alpha⟩ := by
    simp only [C33_win_color_roundtrip]
    have : ((if s.is_metal then (1 : UInt8) else 0) != 0) = s.is_metal := by
      cases s.is_metal <;> rfl
    rw [this]
  have key : BT bmSaveMaterial _ _ :=
    (hb.bind (q := _) <| (bmU32_rt s.base_color.toWinColor).bind <|
      (bmU32_rt s.glossy_color.toWinColor).bind <|
      (bmU32_rt s.clearcoat_color.toWinColor).bind <| (bmU32_rt s.wrap_lighting).bind <|
      (bmU8_rt (if s.is_metal then 1 else 0)).bind <| (bmTake_rt [0, 0, 0] rfl).bind <|
      (bmU32_rt s.roughness).bind <| (bmU8_rt s.glossy_image_lerp).bind <|
      (bmTake_rt [0, 0, 0] rfl).bind <| (bmU32_rt s.edge).bind <| (bmU8_rt s.thickness).bind <|
      (bmTake_rt [0, 0, 0] rfl).bind <| (bmU32_rt s.opacity).bind <|
      (bmU8_rt s.opacity_active_edge_alpha).bind <| BT.last (bmTake_rt [0, 0, 0] rfl))
  rw [← e] at key
  exact key

theorem SavePhysicsMaterial.bt {s : SavePhysicsMaterial} (h : s.WF) :
    ∃ p, s.bytes = .ok p ∧ p.length = 48 ∧ BT bmSavePhysicsMaterial p s := by
  obtain ⟨n, hn, hl, hb⟩ := bmPaddedCstring_rt h
  refine ⟨_, by simp only [SavePhysicsMaterial.bytes, hn]; rfl, by simp [hl], ?_⟩
  exact hb.bind <| (bmU32_rt s.elasticity).bind <| (bmU32_rt s.elasticity_falloff).bind <|
    (bmU32_rt s.friction).bind <| BT.last (bmU32_rt s.scatter_angle)

theorem bmList_rt {α : Type} {g : BM α} {f : α → Res Bytes} {k : Nat} :
    ∀ (l : List α), (∀ a ∈ l, ∃ p, f a = .ok p ∧ p.length = k ∧ BT g p a) →
      ∃ p, bytesList f l = .ok p ∧ p.length = k * l.length ∧ BT (bmList g l.length) p l
  | [], _ => ⟨[], rfl, by simp, BT.pure []⟩
  | a :: l, h => by
    obtain ⟨p, h1, h2, h3⟩ := h a (by simp)
    obtain ⟨q, h4, h5, h6⟩ := bmList_rt l fun b hb => h b (by simp [hb])
    refine ⟨p ++ q, by simp [bytesList, h1, h4], by simp [h2, h5, Nat.mul_succ]; omega, ?_⟩
    exact h3.bind (BT.last (k := fun as => a :: as) h6)

end Vpin
