import Verif.Lemmas.Structs
import Verif.Spec.GameData
import Verif.Props.Structs
import Verif.Props.Text
/-!
Building blocks for the game data: arms that also remember the tag, tables of legacy materials,
materials and render probes.
-/
namespace Vpin

/-- Reading what `ops` writes turns `g` into `g'`, whatever the previous tag was. Unless nothing is
written, the last tag is not BOTM. -/
def GReads (v : UInt32) (ops : List WOp) (g g' : GameData) : Prop :=
  ∀ p, ∃ p', (if ops = [] then p' = p else p' ≠ tag!"BOTM") ∧
    OReads (GameData.arms v) ops ⟨g, p⟩ ⟨g', p'⟩

theorem GReads.nil {v : UInt32} {g : GameData} : GReads v [] g g :=
  fun p => ⟨p, by simp, OReads.nil _ _⟩

theorem GReads.append {v : UInt32} {a b : List WOp} {g g' g'' : GameData}
    (h1 : GReads v a g g') (h2 : GReads v b g' g'') : GReads v (a ++ b) g g'' := by
  intro p
  obtain ⟨p1, e1, h1⟩ := h1 p
  obtain ⟨p2, e2, h2⟩ := h2 p1
  refine ⟨p2, ?_, h1.append h2⟩
  by_cases hb : b = []
  · subst hb
    simp only [if_true] at e2
    rw [e2, List.append_nil]; exact e1
  · simp only [if_neg hb] at e2
    rw [if_neg (by simp [hb])]; exact e2

theorem GReads.segTo {v : UInt32} {a : List WOp} {l : List (List WOp)} {g g1 g'' : GameData}
    (g' : GameData) (h1 : GReads v a g g1) (e : g1 = g') (h2 : GReads v l.flatten g' g'') :
    GReads v (a :: l).flatten g g'' := by
  subst e
  rw [List.flatten_cons]; exact h1.append h2

theorem GReads.done {v : UInt32} {g g' : GameData} (h : g = g') :
    GReads v ([] : List (List WOp)).flatten g g' := by
  subst h; exact GReads.nil

theorem FieldRT.greq {α : Type} {w : Tag → α → WOp} {get : R α} {P : α → Prop}
    (h : FieldRT w get P) {v : UInt32} {g : GameData} {t : Tag}
    {x : α} (set : α → GameData → GameData) (hp : P x)
    (hl : (GameData.arms v).lookup t = some (gfld t get set).2)
    (hv : ValidTag t := by decide) (hne : t ≠ ENDB := by decide) (hb : t ≠ tag!"BOTM" := by decide) :
    GReads v [w t x] g (app set x g) :=
  fun p => ⟨t, by simpa using hb,
    h GDState _ (fun v st => ⟨set v st.gd, t⟩) ⟨g, p⟩ t x hv hne hp hl⟩

theorem FieldRT.gopt {α : Type} {w : Tag → α → WOp} {get : R α} {P : α → Prop}
    (h : FieldRT w get P) {v : UInt32} {g : GameData} {t : Tag} {x : Option α}
    (upd : Option α → GameData → GameData) (hp : OptP P x)
    (hl : (GameData.arms v).lookup t = some (gfld t get fun v s => upd (some v) s).2)
    (hn : upd none g = g) (hv : ValidTag t := by decide) (hne : t ≠ ENDB := by decide)
    (hb : t ≠ tag!"BOTM" := by decide) :
    GReads v (Vpin.opt (w t) x) g (app upd x g) := by
  cases x with
  | none => show GReads v [] g (upd none g); rw [hn]; exact GReads.nil
  | some a => exact FieldRT.greq h (fun v s => upd (some v) s) (hp a rfl) hl hv hne hb

/-! ### Records with a table inside -/

/-- `g` reads the whole record `d` as `x`. -/
def RTD {α : Type} (g : R α) (d : Bytes) (x : α) : Prop :=
  ∀ rest tag w raw, rest ≠ [] →
    g ⟨d ++ rest, d.length, tag, w, raw⟩ = .ok (x, ⟨rest, 0, tag, w, raw⟩)

theorem getRecordData_rt (d : Bytes) : RTD getRecordData d d := by
  intro rest tag w raw hr
  have : 0 < rest.length := List.length_pos_iff.2 hr
  unfold getRecordData
  simp [this]

theorem sizedR_ok {t : Tag} {r : Res Bytes} {d : Bytes} (h : r = .ok d) :
    WOp.sizedR t r = .sized t d := by subst h; rfl

theorem RTD.recordRes {α : Type} {f : Bytes → Res α} {d : Bytes} {x : α} (h : f d = .ok x) :
    RTD (do let d ← getRecordData; R.ofRes (f d)) d x := by
  intro rest tag w raw hr
  rw [R.bind_ok (getRecordData_rt d rest tag w raw hr), h]
  rfl

theorem RTD.step {α σ : Type} {g : R α} {d : Bytes} {x : α} (hg : RTD g d x) (set : α → σ → σ)
    (s : σ) : Step (Vpin.fld g set) d.length d s (set x s) := by
  intro rest tag w raw hr
  show (g >>= fun v => pure (set v s)) _ = _
  rw [R.bind_ok (hg rest tag w raw hr)]; rfl

theorem GReads.record {α : Type} {v : UInt32} {t : Tag} {get : GameData → R α}
    {set : α → GameData → GameData} {g : GameData} {d : Bytes} {x : α} {r : Res Bytes}
    (hr : r = .ok d) (hd : RecordData d) (hg : RTD (get g) d x)
    (hl : (GameData.arms v).lookup t = some (gfldS t get set).2)
    (hv : ValidTag t := by decide) (hne : t ≠ ENDB := by decide)
    (hb : t ≠ tag!"BOTM" := by decide) :
    GReads v [.sizedR t r] g (set x g) := by
  intro p
  rw [sizedR_ok hr]
  refine ⟨t, by simpa using hb, OReads.sized hl hv hne hd ?_⟩
  exact hg.step (fun v (st : GDState) => (⟨set v st.gd, t⟩ : GDState)) ⟨g, p⟩

theorem getFixedList_rt {α : Type} {get : BM α} {n : UInt32} {l : List α} {d : Bytes}
    (hn : l.length = n.toNat) (h : BT (bmList get l.length) d l) : RTD (getFixedList get n) d l := by
  have hd := h []
  rw [List.append_nil, hn] at hd
  refine RTD.recordRes (f := fun d => match bmList get n.toNat d with
    | .error e => .error e
    | .ok (l, _) => .ok l) ?_
  simp only [hd]

theorem mate_reads {v : UInt32} {s g : GameData} (h : ∀ m ∈ s.materials_old, Name31 m.name)
    (hf : s.Fits) (hs : g.materials_size = s.materials_size) :
    GReads v [.sizedR tag!"MATE" (bytesList SaveMaterial.bytes s.materials_old)] g
      { g with materials_old := s.materials_old } := by
  obtain ⟨d, h1, h2, h3⟩ := bmList_rt s.materials_old fun m hm => SaveMaterial.bt (h m hm)
  refine GReads.record (get := fun s => getFixedList bmSaveMaterial s.materials_size)
    (set := fun v s => { s with materials_old := v }) h1 ?_ ?_ rfl
  · show 4 + d.length < 2 ^ 32
    rw [h2]; exact hf.2.1
  · exact getFixedList_rt (by rw [hs]; exact hf.1) h3

theorem phma_reads {v : UInt32} {s g : GameData}
    (h : OptP (fun l => ∀ m ∈ l, Name31 m.name) s.materials_physics_old)
    (hf : s.Fits) (hs : g.materials_size = s.materials_size) (hn : g.materials_physics_old = none) :
    GReads v (opt (fun l => .sizedR tag!"PHMA" (bytesList SavePhysicsMaterial.bytes l))
      s.materials_physics_old) g { g with materials_physics_old := s.materials_physics_old } := by
  cases hx : s.materials_physics_old with
  | none =>
    have : { g with materials_physics_old := none } = g := by rw [← hn]
    rw [this]; exact GReads.nil
  | some l =>
    obtain ⟨d, h1, h2, h3⟩ := bmList_rt l fun m hm => SavePhysicsMaterial.bt (h l hx m hm)
    have hl : l.length = s.materials_size.toNat := hf.2.2.1 l hx
    refine GReads.record (get := fun s => getFixedList bmSavePhysicsMaterial s.materials_size)
      (set := fun v s => { s with materials_physics_old := some v }) h1 ?_ ?_ rfl
    · show 4 + d.length < 2 ^ 32
      have := hf.1; have := hf.2.1
      omega
    · exact getFixedList_rt (by rw [hs]; exact hl) h3

theorem material_write_rt {m : Material} (h : Text m.name) {d : Bytes} (hd : m.write = .ok d) :
    RTD getMaterialRecord d m := by
  obtain ⟨d', h1, h2⟩ := C19_material_roundtrip m h
  rw [hd] at h1; cases h1
  exact RTD.recordRes h2

theorem probe_write_rt {p : RenderProbeWithGarbage} (h : Text p.render_probe.name) {d : Bytes}
    (hd : p.write = .ok d) : RTD getProbeRecord d p := by
  obtain ⟨d', h1, h2⟩ := C20_probe_roundtrip p h
  rw [hd] at h1; cases h1
  exact RTD.recordRes h2

theorem GReads.many {α : Type} {v : UInt32} {t : Tag} {get : R α} {wr : α → Res Bytes}
    (upd : Option (List α) → GameData → GameData) (cur : GameData → Option (List α))
    (hcu : ∀ x g, cur (upd x g) = x) (huu : ∀ x y g, upd x (upd y g) = upd x g)
    (hl : (GameData.arms v).lookup t
      = some (gfld t get fun v s => upd (some ((cur s).getD [] ++ [v])) s).2)
    (hv : ValidTag t) (hne : t ≠ ENDB) (hb : t ≠ tag!"BOTM") :
    ∀ (l : List α) (g : GameData), (∀ x ∈ l, ∃ d, wr x = .ok d ∧ RecordData d ∧ RTD get d x) → l ≠ [] →
      GReads v (l.map fun x => .sizedR t (wr x)) g (upd (some ((cur g).getD [] ++ l)) g)
  | [], _, _, h => absurd rfl h
  | a :: l, g, h, _ => by
    obtain ⟨d, h1, h2, h3⟩ := h a (by simp)
    have hstep : GReads v [.sizedR t (wr a)] g (upd (some ((cur g).getD [] ++ [a])) g) :=
      GReads.record (get := fun _ => get)
        (set := fun v s => upd (some ((cur s).getD [] ++ [v])) s) h1 h2 h3 hl hv hne hb
    cases l with
    | nil => exact hstep
    | cons b l =>
      have ih := GReads.many upd cur hcu huu hl hv hne hb (b :: l)
        (upd (some ((cur g).getD [] ++ [a])) g) (fun x hx => h x (by simp [List.mem_cons.1 hx])) (by simp)
      have := hstep.append ih
      rw [hcu, huu] at this
      simpa using this

theorem matr_reads {v : UInt32} {s g : GameData}
    (h : OptP (fun l => l ≠ [] ∧ ∀ m ∈ l, Text m.name) s.materials)
    (hf : s.Fits) (hn : g.materials = none) :
    GReads v (materialOps (s.materials.getD [])) g { g with materials := s.materials } := by
  cases hx : s.materials with
  | none =>
    have : { g with materials := none } = g := by rw [← hn]
    rw [this]; exact GReads.nil
  | some l =>
    have hw := hf.2.2.2.1
    rw [hx] at hw
    have := GReads.many (v := v) (t := tag!"MATR") (get := getMaterialRecord) (wr := Material.write)
      (fun x g => { g with materials := x }) (fun g => g.materials) (fun _ _ => rfl)
      (fun _ _ _ => rfl) rfl (by decide) (by decide) (by decide) l g (fun m hm => by
        obtain ⟨d, h1, h2⟩ := hw m hm
        exact ⟨d, h1, h2, material_write_rt ((h l hx).2 m hm) h1⟩) (h l hx).1
    simp only [hn, Option.getD_none, List.nil_append] at this
    exact this

theorem rprb_reads {v : UInt32} {s g : GameData}
    (h : OptP (fun l => l ≠ [] ∧ ∀ p ∈ l, Text p.render_probe.name) s.render_probes)
    (hf : s.Fits) (hn : g.render_probes = none) :
    GReads v (probeOps (s.render_probes.getD [])) g { g with render_probes := s.render_probes } := by
  cases hx : s.render_probes with
  | none =>
    have : { g with render_probes := none } = g := by rw [← hn]
    rw [this]; exact GReads.nil
  | some l =>
    have hw := hf.2.2.2.2
    rw [hx] at hw
    have := GReads.many (v := v) (t := tag!"RPRB") (get := getProbeRecord)
      (wr := RenderProbeWithGarbage.write)
      (fun x g => { g with render_probes := x }) (fun g => g.render_probes) (fun _ _ => rfl)
      (fun _ _ _ => rfl) rfl (by decide) (by decide) (by decide) l g (fun m hm => by
        obtain ⟨d, h1, h2⟩ := hw m hm
        exact ⟨d, h1, h2, probe_write_rt ((h l hx).2 m hm) h1⟩) (h l hx).1
    simp only [hn, Option.getD_none, List.nil_append] at this
    exact this

/-! ### Colours and scripts -/

theorem bmU32s_rt : ∀ (l : List Color),
    BT (bmList bmU32 l.length) (writeColors l) (l.map Color.toWinColor)
  | [] => BT.pure []
  | c :: l => by
    exact BT.bind (k := fun a => bmList bmU32 l.length >>= fun as => Pure.pure (a :: as))
      (bmU32_rt c.toWinColor) (BT.last (k := fun as => c.toWinColor :: as) (bmU32s_rt l))

theorem readColors_write {l : List Color} (h : l.length = 16) :
    readColors (writeColors l) = .ok l := by
  have := bmU32s_rt l []
  rw [h, List.append_nil] at this
  unfold readColors
  rw [this]
  simp [Function.comp_def, C33_win_color_roundtrip]

theorem writeColors_length (l : List Color) : (writeColors l).length = 4 * l.length := by
  induction l with
  | nil => rfl
  | cons c l ih =>
    have : writeColors (c :: l) = le32 c.toWinColor ++ writeColors l := rfl
    rw [this, List.length_append, ih]
    simp [le32]; omega

theorem colors_rt : FieldRT (fun t l => wData t (writeColors l)) getColors16
    (fun l => l.length = 16) := by
  intro σ hs set s t l hv hne hp hl
  refine OReads.sized hl hv hne (by rw [writeColors_length, hp]; decide) ?_
  exact RTD.step (RTD.recordRes (readColors_write hp)) set s

theorem script_pay {s : StringWithEncoding} (h : Script s) :
    ∃ d, pStringEnc s = .ok d ∧ RTN getCode d s := by
  obtain ⟨d, h0, hl, rfl⟩ := h
  refine ⟨_, ?_, getCode_rt h0 hl⟩
  simp only [pStringEnc, C05_script_bytes_preserved, pLenData, hl, if_true]

theorem code_rt : FieldRT wStringEncNoSize getCode Script := by
  intro σ hs set s t v hv hne hp hl
  obtain ⟨p, hp1, hp2⟩ := script_pay hp
  have : wStringEncNoSize t v = .unsized t p := by simp [wStringEncNoSize, hp1, WOp.unsizedR]
  rw [this]
  exact OReads.unsized hl hv hne (Step.fldN hp2 set s)

/-! ### What the reader guarantees -/

/-- All arms keep an invariant of the game data. -/
def GArmsInv (Inv : GameData → Prop) (hs : Handlers GDState) : Prop :=
  ArmsInv (fun st => Inv st.gd) hs

theorem GArmsInv.nil {Inv : GameData → Prop} : GArmsInv Inv [] := ArmsInv.nil

theorem GArmsInv.cons {Inv : GameData → Prop} {x : Tag × (GDState → R GDState)} {hs : Handlers GDState}
    (h : ArmInv (fun st => Inv st.gd) x.2) (hs' : GArmsInv Inv hs) : GArmsInv Inv (x :: hs) :=
  ArmsInv.cons (t := x.1) h hs'

theorem GArmsInv.append {Inv : GameData → Prop} {a b : Handlers GDState}
    (ha : GArmsInv Inv a) (hb : GArmsInv Inv b) : GArmsInv Inv (a ++ b) := ArmsInv.append ha hb

theorem ArmInv.gfld {Inv : GameData → Prop} {α : Type} {t : Tag} {get : R α}
    {set : α → GameData → GameData} {P : α → Prop} (hg : GP get P)
    (h : ∀ s v, Inv s → P v → Inv (set v s)) : ArmInv (fun st => Inv st.gd) (gfld t get set).2 :=
  ArmInv.fld hg fun st v hi hv => h st.gd v hi hv

theorem ArmInv.gfldS {Inv : GameData → Prop} {α : Type} {t : Tag} {get : GameData → R α}
    {set : α → GameData → GameData} {P : α → Prop} (hg : ∀ s, GP (get s) P)
    (h : ∀ s v, Inv s → P v → Inv (set v s)) :
    ArmInv (fun st => Inv st.gd) (Vpin.gfldS t get set).2 := by
  intro st r st' r' hi hb hr
  have := ArmInv.fld (Inv := fun st => Inv st.gd) (set := fun v (st : GDState) => (⟨set v st.gd, t⟩ : GDState))
    (hg st.gd) (fun st v hi hv => h st.gd v hi hv)
  exact this st r st' r' hi hb hr

/-- the flag for beta versions is only set together with an EFSS setting, in tables of version 1080 -/
def BetaOk (v : UInt32) (s : GameData) : Prop :=
  s.is_10_8_0_beta1_to_beta4 = true → v = 1080 ∧ s.bg_enable_fss.isSome

theorem efss_inv {v : UInt32} : ArmInv (fun st => st.gd.Fields) (efssArm v) := by
  intro st r st' r' hi hb hr
  unfold efssArm at hr
  revert hr
  refine ArmInv.fld (Inv := fun st => st.gd.Fields) GP.any ?_ st r st' r' hi hb
  exact fun _ _ h _ => h

theorem efss_beta {v : UInt32} : ArmInv (fun st => BetaOk v st.gd) (efssArm v) := by
  intro st r st' r' hi hb hr
  unfold efssArm at hr
  revert hr
  refine ArmInv.fld (Inv := fun st => BetaOk v st.gd) GP.any ?_ st r st' r' hi hb
  intro st b h _ hx
  refine ⟨?_, rfl⟩
  by_cases hc : v = 1080 ∧ st.prev ≠ tag!"BOTM"
  · exact hc.1
  · simp only [if_neg hc] at hx
    exact (h hx).1

theorem other_inv {Inv : GameData → Prop} : ArmInv (fun st => Inv st.gd) gameDataOther := by
  intro st r st' r' hi _ hr
  obtain ⟨t, r1, -, hr⟩ := R.bind_inv hr
  obtain ⟨d, r2, -, hr⟩ := R.bind_inv hr
  obtain ⟨rfl, -⟩ := R.pure_inv hr
  exact hi

theorem recordRes_gp {α : Type} {f : Bytes → Res α} {P : α → Prop} (h : ∀ d x, f d = .ok x → P x) :
    GP (do let d ← getRecordData; R.ofRes (f d)) P := by
  intro r v r' _ hr
  obtain ⟨d, r1, -, h2⟩ := R.bind_inv hr
  exact h d v (R.ofRes_inv h2).1

theorem fixedList_gp {α : Type} {get : BM α} {n : UInt32} {P : α → Prop}
    (h : ∀ bs a bs', get bs = .ok (a, bs') → P a) : GP (getFixedList get n) (fun l => ∀ m ∈ l, P m) := by
  refine recordRes_gp fun d x hx => ?_
  split at hx
  · cases hx
  · next l rest hl => cases hx; exact (bmList_inv h _ _ _ _ hl).2

theorem saveMaterials_gp {n : UInt32} :
    GP (getFixedList bmSaveMaterial n) (fun l => ∀ m ∈ l, Name31 m.name) :=
  fixedList_gp fun _ _ _ => bmSaveMaterial_inv

theorem savePhysics_gp {n : UInt32} :
    GP (getFixedList bmSavePhysicsMaterial n) (fun l => ∀ m ∈ l, Name31 m.name) :=
  fixedList_gp fun _ _ _ => bmSavePhysicsMaterial_inv

theorem material_gp : GP getMaterialRecord (fun m => Text m.name) :=
  recordRes_gp fun _ _ h =>
    (readStruct_inv Material.arms_inv Material.init_wf h : Material.WF _)

theorem probe_gp : GP getProbeRecord (fun p => Text p.render_probe.name) := by
  refine recordRes_gp fun d p h => ?_
  unfold RenderProbeWithGarbage.read at h
  split at h
  · cases h
  · next probe r hr =>
    split at h
    · cases h
    · cases h
      exact loop_inv RenderProbe.arms_inv _ _ _ _ _ RenderProbe.init_wf hr

theorem push_list {α : Type} {P : α → Prop} {x : Option (List α)} {v : α}
    (h : OptP (fun l => l ≠ [] ∧ ∀ m ∈ l, P m) x) (hv : P v) :
    OptP (fun l => l ≠ [] ∧ ∀ m ∈ l, P m) (some (x.getD [] ++ [v])) := by
  intro l hl
  cases hl
  refine ⟨by simp, ?_⟩
  intro m hm
  rcases List.mem_append.1 hm with hm | hm
  · cases x with
    | none => cases hm
    | some l => exact (h l rfl).2 m hm
  · rw [List.mem_singleton.1 hm]; exact hv

theorem colors_gp : GP getColors16 (fun l => l.length = 16) := by
  refine recordRes_gp fun d l h => ?_
  unfold readColors at h
  split at h
  · cases h
  · next l' rest hl =>
    cases h
    rw [List.length_map]
    exact (bmList_inv (P := fun _ => True) (fun _ _ _ _ => trivial) _ _ _ _ hl).1

theorem code_gp : GP getCode Script := by
  intro r v r' _ h
  obtain ⟨n, r1, h1, h2⟩ := R.bind_inv h
  obtain ⟨d, r2, h3, h4⟩ := R.bind_inv h2
  obtain ⟨rfl, -⟩ := R.pure_inv h4
  have b := takeCut_inv h3
  have := n.toNat_lt
  exact ⟨d, b.2.1, by omega, rfl⟩

/-! ### Termination -/

theorem fixedList_tame {α : Type} (get : BM α) (n : UInt32) : Tame (getFixedList get n) :=
  data_tame.bind fun _ => Tame.ofRes _
theorem matr_tame : Tame getMaterialRecord := data_tame.bind fun _ => Tame.ofRes _
theorem rprb_tame : Tame getProbeRecord := data_tame.bind fun _ => Tame.ofRes _
theorem colors_tame : Tame getColors16 := data_tame.bind fun _ => Tame.ofRes _

end Vpin
