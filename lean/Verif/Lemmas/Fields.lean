import Verif.Lemmas.Biff
import Verif.Lemmas.Quantize
import Verif.Spec.Common
/-!
Field codecs: a tagged record written by one `write_tagged_*` helper and read by the matching
getter, and what is known about every value a getter returns.
-/
namespace Vpin

/-! ### Writing and reading one field -/

/-- `app` keeps a field update from being expanded. -/
def app {σ α : Type} (set : α → σ → σ) (v : α) (s : σ) : σ := set v s

/-- Records written by `w` are read back by `g`, for the values in `P`. -/
def FieldRT {α : Type} (w : Tag → α → WOp) (g : R α) (P : α → Prop) : Prop :=
  ∀ (σ : Type) (hs : Handlers σ) (set : α → σ → σ) (s : σ) (t : Tag) (v : α),
    ValidTag t → t ≠ ENDB → P v → hs.lookup t = some (fld g set) →
    OReads hs [w t v] s (set v s)

theorem FieldRT.req {α : Type} {w : Tag → α → WOp} {g : R α} {P : α → Prop} (h : FieldRT w g P)
    {σ : Type} {hs : Handlers σ} {set : α → σ → σ} {s : σ} {t : Tag} {v : α} (hp : P v)
    (hl : hs.lookup t = some (fld g set)) (hv : ValidTag t := by decide)
    (hne : t ≠ ENDB := by decide) : OReads hs [w t v] s (app set v s) :=
  h σ hs set s t v hv hne hp hl

theorem FieldRT.opt {α : Type} {w : Tag → α → WOp} {g : R α} {P : α → Prop} (h : FieldRT w g P)
    {σ : Type} {hs : Handlers σ} {s : σ} {t : Tag} {v : Option α} (upd : Option α → σ → σ)
    (hp : OptP P v) (hl : hs.lookup t = some (fld g fun v s => upd (some v) s))
    (hn : upd none s = s) (hv : ValidTag t := by decide)
    (hne : t ≠ ENDB := by decide) : OReads hs (Vpin.opt (w t) v) s (app upd v s) := by
  cases v with
  | none => show OReads hs [] s (upd none s); rw [hn]; exact OReads.nil hs s
  | some a => exact h σ hs (fun v s => upd (some v) s) s t a hv hne (hp a rfl) hl

theorem FieldRT.mono {α : Type} {w : Tag → α → WOp} {g : R α} {P Q : α → Prop} (h : FieldRT w g P)
    (hpq : ∀ v, Q v → P v) : FieldRT w g Q :=
  fun σ hs set s t v hv hne hq hl => h σ hs set s t v hv hne (hpq v hq) hl

theorem FieldRT.sized {α : Type} {g : R α} {pay : α → Bytes} {P : α → Prop}
    (h : ∀ v, P v → RT g (pay v) v) (hn : ∀ v, P v → 4 + (pay v).length < 2 ^ 32) :
    FieldRT (fun t v => .sized t (pay v)) g P :=
  fun _ _ _ _ _ v hv hne hp hl => OReads.fld hl (h v hp) (hn v hp) hv hne

theorem bool_rt : FieldRT wBool getBool Any :=
  FieldRT.sized (fun v _ => getBool_rt v) (fun v _ => by cases v <;> decide)

theorem le32_small (x : UInt32) : 4 + (le32 x).length < 2 ^ 32 := by
  have : (le32 x).length = 4 := rfl
  rw [this]; decide

theorem u32_rt : FieldRT wU32 getU32 Any :=
  FieldRT.sized (fun v _ => getU32_rt v) (fun v _ => le32_small v)
theorem f32_rt : FieldRT wF32 getF32 Any :=
  FieldRT.sized (fun v _ => getF32_rt v) (fun v _ => le32_small v)
theorem i32_rt : FieldRT wI32 getI32 Any :=
  FieldRT.sized (fun v _ => getI32_rt v) (fun v _ => le32_small v.toUInt32)

theorem string_rt : FieldRT wString getString Text := by
  intro σ hs set s t v hv hne hp hl
  obtain ⟨p, hp1, hp2, hp3⟩ := pString_rt hp
  have hn : 4 + p.length < 2 ^ 32 := by rw [hp2]; have := hp.2.2; omega
  have : wString t v = .sized t p := by simp [wString, hp1, WOp.sizedR]
  rw [this]
  exact OReads.fld hl hp3 hn hv hne

theorem wide_rt : FieldRT wWide getWide WText := by
  intro σ hs set s t v hv hne hp hl
  obtain ⟨p, hp1, hp2, hp3⟩ := pWide_rt hp
  have hn : 4 + p.length < 2 ^ 32 := by
    rw [hp2, encodeUtf16le_utf16Len]; have : 8 + _ < _ := hp; omega
  have : wWide t v = .sized t p := by simp [wWide, hp1, WOp.sizedR]
  rw [this]
  exact OReads.fld hl hp3 hn hv hne

theorem vertex2d_rt : FieldRT wVertex2D getVertex2D Any := by
  refine FieldRT.sized (fun v _ => ?_) (fun v _ => (by decide : 4 + 8 < 2 ^ 32))
  exact RT.bind (getF32_rt v.x) (RT.map (getF32_rt v.y))

theorem vertex3du_rt : FieldRT wVertex3DUnpadded getVertex3DUnpadded Any := by
  refine FieldRT.sized (fun v _ => ?_) (fun v _ => (by decide : 4 + 12 < 2 ^ 32))
  rw [List.append_assoc]
  exact RT.bind (getF32_rt v.x) (RT.bind (getF32_rt v.y) (RT.map (getF32_rt v.z)))

theorem vertex3d_rt : FieldRT wVertex3D getVertex3D Any := by
  refine FieldRT.sized (fun v _ => ?_) (fun v _ => (by decide : 4 + 16 < 2 ^ 32))
  rw [List.append_assoc, List.append_assoc]
  exact RT.bind (getF32_rt v.x) (RT.bind (getF32_rt v.y) (RT.bind (getF32_rt v.z)
    (RT.map (getF32_rt 0))))

theorem color_rt : FieldRT wColor getColor Any := by
  refine FieldRT.sized (fun v _ => ?_) (fun v _ => (by decide : 4 + 4 < 2 ^ 32))
  exact RT.bind (p := [v.r]) (getU8_rt v.r) (RT.bind (p := [v.g]) (getU8_rt v.g)
    (RT.bind (p := [v.b]) (getU8_rt v.b) (RT.map (getU8_rt v.unused))))

theorem RT.ofRes {α : Type} {r : Res α} {v : α} (h : r = .ok v) : RT (R.ofRes r) [] v := by
  subst h; exact RT.pure v

theorem enum_rt {α : Type} {toU32 : α → UInt32} {ofU32 : UInt32 → Res α} {P : α → Prop}
    (h : ∀ v, P v → ofU32 (toU32 v) = .ok v) : FieldRT (wEnum toU32) (getEnum ofU32) P := by
  refine FieldRT.sized (pay := fun v => le32 (toU32 v)) (fun v hp => ?_) (fun v _ => le32_small _)
  have := RT.bind (k := fun n => R.ofRes (ofU32 n)) (getU32_rt (toU32 v)) (RT.ofRes (h v hp))
  rwa [List.append_nil] at this

theorem wQuant8_ok {t : Tag} {x : F32} {n : UInt32} (h : quantize8 x = .ok n) :
    wQuant8 t x = .sized t (le32 n) := by
  unfold wQuant8; rw [h]; rfl

theorem quant8_rt : FieldRT wQuant8 getQuant8 Level8 := by
  intro σ hs set s t v hv hne hp hl
  obtain ⟨i, hi, he⟩ := hp
  have hq : quantize8 v = .ok i := by rw [he]; exact quantize8_dequantize8 hi
  have h : RT getQuant8 (le32 i) v := by rw [he]; exact RT.map (getU32_rt i)
  rw [wQuant8_ok hq]
  exact OReads.fld hl h (le32_small i) hv hne

/-! ### Fonts -/

theorem FontStyles.ofFlags_toFlags (s : FontStyles) : FontStyles.ofFlags s.toFlags = s := by
  obtain ⟨a, b, c, d, e⟩ := s
  revert a b c d e
  decide

theorem getStrN_rt (p : Bytes) (n : Nat) (h : p.length = n) :
    RTN (getStrN n) p (decodeLatin1 (cutNul p)) := RTN.map (takeCut_rt p n h)

theorem font_payload {f : Font} (h : f.WF) :
    ∃ p, f.payload = .ok p ∧ RTN getFont p f := by
  obtain ⟨d, hd⟩ := (encodeLatin1_ok_iff f.name).2 h.1
  have hl := encodeLatin1_length hd
  have h0 := nulFree_encode hd h.2.1
  have hlt : d.length < 256 := by rw [hl]; exact h.2.2
  refine ⟨_, by simp only [Font.payload, pShortString, hd, hlt, if_true]; rfl, ?_⟩
  simp only [List.append_assoc]
  refine RTN.bind (getU8N_rt 1) ?_
  have hn8 : (UInt8.ofNat d.length).toNat = d.length := by simp; omega
  have key : RTN (do
      let charset ← getU16N
      let style ← getU8N
      let weight ← getU16N
      let size ← getU32N
      let name_len ← getU8N
      let name ← getStrN name_len.toNat
      return ({ charset, style := FontStyles.ofFlags style, weight, size, name } : Font))
      (le16 f.charset ++ ([f.style.toFlags] ++ (le16 f.weight ++ (le32 f.size ++
        UInt8.ofNat d.length :: d)))) f := by
    refine RTN.bind (getU16N_rt _) (RTN.bind (getU8N_rt _) (RTN.bind (getU16N_rt _)
      (RTN.bind (getU32N_rt _) (RTN.bind (p := [UInt8.ofNat d.length]) (getU8N_rt _) ?_))))
    have := RTN.map (f := fun n => (Font.mk f.charset (FontStyles.ofFlags f.style.toFlags)
      f.weight f.size n)) (getStrN_rt d _ hn8.symm)
    rw [cutNul_eq_self h0, decodeLatin1_of_encode hd] at this
    have e : Font.mk f.charset (FontStyles.ofFlags f.style.toFlags) f.weight f.size f.name = f := by
      rw [FontStyles.ofFlags_toFlags]
    rw [e] at this
    exact this
  intro rest b tag w raw
  have := key rest b tag w raw
  exact this

theorem font_rt : FieldRT wFont getFont Font.WF := by
  intro σ hs set s t v hv hne hp hl
  obtain ⟨p, hp1, hp2⟩ := font_payload hp
  have : wFont t v = .unsized t p := by simp [wFont, hp1, WOp.unsizedR]
  rw [this]
  exact OReads.unsized hl hv hne (Step.fldN hp2 set s)

/-! ### Segments of a writer -/

theorem OReads.seg {σ : Type} {hs : Handlers σ} {a : List WOp} {l : List (List WOp)} {s s' s'' : σ}
    (h1 : OReads hs a s s') (h2 : OReads hs l.flatten s' s'') :
    OReads hs (a :: l).flatten s s'' := by
  rw [List.flatten_cons]; exact h1.append h2

/-- As `OReads.seg`, with the state after the segment given explicitly. -/
theorem OReads.segTo {σ : Type} {hs : Handlers σ} {a : List WOp} {l : List (List WOp)}
    {s s1 s'' : σ} (s' : σ) (h1 : OReads hs a s s1) (e : s1 = s') (h2 : OReads hs l.flatten s' s'') :
    OReads hs (a :: l).flatten s s'' := by
  subst e; exact h1.seg h2

theorem OReads.done {σ : Type} {hs : Handlers σ} {s s' : σ} (h : s = s') :
    OReads hs ([] : List (List WOp)).flatten s s' := by
  subst h; exact OReads.nil hs s

/-- A marker record without payload, `"TAG" => {}`. -/
theorem OReads.marker {σ : Type} {hs : Handlers σ} {t : Tag} {s : σ}
    (hl : hs.lookup t = some pure) (hv : ValidTag t := by decide)
    (hne : t ≠ ENDB := by decide) : OReads hs [wMarker t] s s :=
  OReads.sized hl hv hne (by decide) (fun rest tag w raw _ => rfl)

/-- Repeated nested records, each appended to a list. -/
theorem OReads.nestedList {σ τ : Type} {hs : Handlers σ} {hs' : Handlers τ} {t : Tag}
    {ops : τ → List WOp} {u : τ} (l : List τ) {s : σ} (add : List τ → σ → σ)
    (hl : hs.lookup t = some (Vpin.fld (getChild (readWith hs' u)) fun v s => add [v] s))
    (h : ∀ v ∈ l, OReads hs' (ops v) u v)
    (hcons : ∀ v l s, add l (add [v] s) = add (v :: l) s) (hnil : ∀ s, add [] s = s)
    (hv : ValidTag t := by decide) (hne : t ≠ ENDB := by decide) :
    OReads hs (l.flatMap fun v => wNested t (ops v)) s (app add l s) := by
  induction l generalizing s with
  | nil => show OReads hs [] s (add [] s); rw [hnil]; exact OReads.nil hs s
  | cons v l ih =>
    have h1 : OReads hs (wNested t (ops v)) s (add [v] s) :=
      OReads.nested (set := fun v s => add [v] s) hl (h v (by simp)) hv hne
    have h2 := ih (s := add [v] s) (fun v hv => h v (by simp [hv]))
    show OReads hs (wNested t (ops v) ++ l.flatMap fun v => wNested t (ops v)) s (add (v :: l) s)
    rw [← hcons]
    exact h1.append h2

/-! ### Timers and shared attributes -/

/-- the usual laws of field access -/
structure Lens.Lawful {σ α : Type} (L : Lens σ α) : Prop where
  get_put : ∀ a s, L.get (L.put a s) = a
  put_put : ∀ a b s, L.put a (L.put b s) = L.put a s
  put_get : ∀ s, L.put (L.get s) s = s

theorem tmon_reads {σ : Type} {hs : Handlers σ} {L : Lens σ TimerData} {t : TimerData} {s : σ}
    (hl : hs.lookup tag!"TMON"
      = some (fld getBool fun v => L.modify fun t => { t with is_enabled := v })) :
    OReads hs t.tmonOps s (app L.modify (fun x => { x with is_enabled := t.is_enabled }) s) :=
  bool_rt.req trivial hl

theorem tmin_reads {σ : Type} {hs : Handlers σ} {L : Lens σ TimerData} {t : TimerData} {s : σ}
    (hl : hs.lookup tag!"TMIN"
      = some (fld getI32 fun v => L.modify fun t => { t with interval := v })) :
    OReads hs t.tminOps s (app L.modify (fun x => { x with interval := t.interval }) s) :=
  i32_rt.req trivial hl

theorem timer_reads {σ : Type} {hs : Handlers σ} {L : Lens σ TimerData} (hL : L.Lawful)
    {t : TimerData} {s : σ}
    (hl1 : hs.lookup tag!"TMON"
      = some (fld getBool fun v => L.modify fun t => { t with is_enabled := v }))
    (hl2 : hs.lookup tag!"TMIN"
      = some (fld getI32 fun v => L.modify fun t => { t with interval := v })) :
    OReads hs t.ops s (app L.put t s) := by
  refine ((tmon_reads (t := t) hl1).append (tmin_reads (t := t) hl2)).congr ?_
  simp [app, Lens.modify, hL.get_put, hL.put_put]

theorem shared_reads {σ : Type} {hs : Handlers σ} {L : Lens σ SharedAttrs} (hL : L.Lawful)
    {a : SharedAttrs} (ha : a.WF) {s : σ} (h0 : L.get s = SharedAttrs.default)
    (hlock : hs.lookup tag!"LOCK"
      = some (fld getBool fun v => L.modify fun a => { a with is_locked := v }))
    (hlayr : hs.lookup tag!"LAYR"
      = some (fld getU32 fun v => L.modify fun a => { a with editor_layer := some v }))
    (hlanr : hs.lookup tag!"LANR"
      = some (fld getString fun v => L.modify fun a => { a with editor_layer_name := some v }))
    (hlvis : hs.lookup tag!"LVIS"
      = some (fld getBool fun v => L.modify fun a => { a with editor_layer_visibility := some v }))
    (hgrup : hs.lookup tag!"GRUP"
      = some (fld getString fun v => L.modify fun a => { a with part_group_name := some v })) :
    OReads hs a.ops s (app L.put a s) := by
  unfold SharedAttrs.ops
  refine .seg (bool_rt.req trivial hlock) ?_
  refine .seg (u32_rt.opt (fun v => L.modify fun a => { a with editor_layer := v })
    (fun _ _ => trivial) hlayr ?_) ?_
  · simp only [app, Lens.modify, hL.get_put, hL.put_put, h0]; rfl
  refine .seg (string_rt.opt (fun v => L.modify fun a => { a with editor_layer_name := v })
    ha.editor_layer_name hlanr ?_) ?_
  · simp only [app, Lens.modify, hL.get_put, hL.put_put, h0]; rfl
  refine .seg (string_rt.opt (fun v => L.modify fun a => { a with part_group_name := v })
    ha.part_group_name hgrup ?_) ?_
  · simp only [app, Lens.modify, hL.get_put, hL.put_put, h0]; rfl
  refine .seg (bool_rt.opt (fun v => L.modify fun a => { a with editor_layer_visibility := v })
    (fun _ _ => trivial) hlvis ?_) ?_
  · simp only [app, Lens.modify, hL.get_put, hL.put_put, h0]; rfl
  refine .done ?_
  simp only [app, Lens.modify, hL.get_put, hL.put_put]

end Vpin
