import Verif.Lemmas.GameData
import Verif.Lemmas.GameDataSkip
/-!
C12 (game data survives being written and read) and C13 (position of the EFSS record).
-/
namespace Vpin

/-- The beta flag that a reader finds in a file of this version written for `s`: only for version
1080 with an EFSS setting, and then it is set iff the EFSS record does not directly follow BOTM. -/
def GameData.flagAfter (v : UInt32) (s : GameData) : Bool :=
  v = 1080 && s.bg_enable_fss.isSome && (s.is_10_8_0_beta1_to_beta4 || s.camera_layout_mode.isSome)

theorem GameData.readsA1 {v : UInt32} {s : GameData} :
    OReads (GameData.arms v) s.opsA1 ⟨GameData.default, 0⟩
      ⟨{ GameData.default with
          left := s.left
          top := s.top
          right := s.right
          bottom := s.bottom
          camera_layout_mode := s.camera_layout_mode },
        if s.camera_layout_mode.isSome then tag!"CLMO" else tag!"BOTM"⟩ := by
  unfold GameData.opsA1
  refine .segTo (⟨{ GameData.default with left := s.left }, tag!"LEFT"⟩ : GDState)
    (f32_rt.req (set := fun v st => ⟨{ st.gd with left := v }, tag!"LEFT"⟩) trivial rfl) rfl ?_
  refine .segTo (⟨{ GameData.default with
      left := s.left
      top := s.top }, tag!"TOPX"⟩ : GDState)
    (f32_rt.req (set := fun v st => ⟨{ st.gd with top := v }, tag!"TOPX"⟩) trivial rfl) rfl ?_
  refine .segTo (⟨{ GameData.default with
      left := s.left
      top := s.top
      right := s.right }, tag!"RGHT"⟩ : GDState)
    (f32_rt.req (set := fun v st => ⟨{ st.gd with right := v }, tag!"RGHT"⟩) trivial rfl) rfl ?_
  refine .segTo (⟨{ GameData.default with
      left := s.left
      top := s.top
      right := s.right
      bottom := s.bottom }, tag!"BOTM"⟩ : GDState)
    (f32_rt.req (set := fun v st => ⟨{ st.gd with bottom := v }, tag!"BOTM"⟩) trivial rfl) rfl ?_
  cases s.camera_layout_mode with
  | none => exact OReads.nil _ _
  | some c =>
    exact u32_rt.req (set := fun v (st : GDState) =>
      (⟨{ st.gd with camera_layout_mode := some v }, tag!"CLMO"⟩ : GDState)) trivial rfl

theorem GameData.efss_reads {v : UInt32} {g : GameData} {p : Tag} (e : Option Bool)
    (hn : g.bg_enable_fss = none) :
    OReads (GameData.arms v) (opt (wBool tag!"EFSS") e) ⟨g, p⟩
      ⟨{ g with
          is_10_8_0_beta1_to_beta4 := if v = 1080 ∧ e.isSome = true ∧ p ≠ tag!"BOTM" then true
            else g.is_10_8_0_beta1_to_beta4
          bg_enable_fss := e }, if e.isSome then tag!"EFSS" else p⟩ := by
  cases e with
  | none =>
    have : { g with
          is_10_8_0_beta1_to_beta4 := if v = 1080 ∧ (none : Option Bool).isSome = true ∧ p ≠ tag!"BOTM"
            then true else g.is_10_8_0_beta1_to_beta4
          bg_enable_fss := none } = g := by
      have : (if v = 1080 ∧ (none : Option Bool).isSome = true ∧ p ≠ tag!"BOTM" then true
          else g.is_10_8_0_beta1_to_beta4) = g.is_10_8_0_beta1_to_beta4 := if_neg (by simp)
      rw [this, ← hn]
    simp only [this]
    exact OReads.nil _ _
  | some b =>
    have h := bool_rt GDState (GameData.arms v)
      (fun b st => ⟨{ st.gd with
        is_10_8_0_beta1_to_beta4 :=
          if v = 1080 ∧ st.prev ≠ tag!"BOTM" then true else st.gd.is_10_8_0_beta1_to_beta4,
        bg_enable_fss := some b }, tag!"EFSS"⟩) ⟨g, p⟩ tag!"EFSS" b (by decide) (by decide) trivial rfl
    have e : (if v = 1080 ∧ (some b).isSome = true ∧ p ≠ tag!"BOTM" then true
          else g.is_10_8_0_beta1_to_beta4)
        = if v = 1080 ∧ p ≠ tag!"BOTM" then true else g.is_10_8_0_beta1_to_beta4 := by
      simp only [Option.isSome_some, true_and]
    rw [e]
    exact h

theorem GameData.opsA2_ne (s : GameData) : s.opsA2 ≠ [] := by
  intro h
  have : wF32 tag!"ROTA" s.bg_rotation_desktop ∈ s.opsA2 := by
    unfold GameData.opsA2
    simp only [List.mem_flatten]
    exact ⟨[wF32 tag!"ROTA" s.bg_rotation_desktop], by simp, by simp⟩
  rw [h] at this
  cases this

theorem GameData.reads {v : UInt32} {s : GameData} (h : s.Fields) (hf : s.Fits) :
    ∃ p, OReads (GameData.arms v) (s.ops v) ⟨GameData.default, 0⟩
      ⟨{ s with is_10_8_0_beta1_to_beta4 := s.flagAfter v }, p⟩ := by
  let s' : GameData := { s with is_10_8_0_beta1_to_beta4 := s.flagAfter v }
  have h' : s'.Fields := h
  have hf' : s'.Fits := hf
  unfold GameData.ops
  -- everything up to the second place of EFSS
  have head : ∃ p, OReads (GameData.arms v)
      (s.opsA1 ++ (s.efssEarly v ++ (s.opsA2 ++ s.efssLate v))) ⟨GameData.default, 0⟩
      ⟨{ GameData.default with toGDView := s'.toGDView }, p⟩ := by
    by_cases hb : v ≥ 1080 ∧ ¬ s.is_10_8_0_beta1_to_beta4
    · have h1 : s.efssEarly v = opt (wBool tag!"EFSS") s.bg_enable_fss := by
        unfold GameData.efssEarly; rw [if_pos hb]
      have h2 : s.efssLate v = [] := by
        unfold GameData.efssLate
        rw [if_neg]
        intro hc
        rcases hc with hc | hc
        · have := hb.1
          have h3 : ¬ (v < 1080) := by
            intro h4
            have h5 := UInt32.lt_iff_toNat_lt.1 h4
            have h6 := UInt32.le_iff_toNat_le.1 this
            omega
          exact h3 hc
        · exact hb.2 hc
      have hbf : s.is_10_8_0_beta1_to_beta4 = false := by simpa using hb.2
      rw [h1, h2, List.append_nil]
      obtain ⟨p, -, hA2⟩ := GameData.readsA2 (v := v) (e := s.bg_enable_fss) (b := s.flagAfter v) h
        (if s.bg_enable_fss.isSome then tag!"EFSS"
          else if s.camera_layout_mode.isSome then tag!"CLMO" else tag!"BOTM")
      refine ⟨p, GameData.readsA1.append (((GameData.efss_reads _ rfl).congr ?_).append hA2)⟩
      have e : (if v = 1080 ∧ s.bg_enable_fss.isSome = true ∧
          (if s.camera_layout_mode.isSome then tag!"CLMO" else tag!"BOTM") ≠ tag!"BOTM" then true
          else GameData.default.is_10_8_0_beta1_to_beta4) = s.flagAfter v := by
        unfold GameData.flagAfter
        rw [hbf]
        cases s.camera_layout_mode <;> cases s.bg_enable_fss <;>
          by_cases hv : v = 1080 <;> simp [hv, GameData.default]
      simp only [e]
    · have h1 : s.efssEarly v = [] := by
        unfold GameData.efssEarly; rw [if_neg hb]
      have hc : v < 1080 ∨ s.is_10_8_0_beta1_to_beta4 = true := by
        by_cases hx : s.is_10_8_0_beta1_to_beta4 = true
        · exact .inr hx
        · refine .inl ?_
          have : ¬ v ≥ 1080 := fun hg => hb ⟨hg, hx⟩
          exact UInt32.not_le.1 this
      have h2 : s.efssLate v = opt (wBool tag!"EFSS") s.bg_enable_fss := by
        unfold GameData.efssLate; rw [if_pos hc]
      rw [h1, h2, List.nil_append]
      obtain ⟨p, hp, hA2⟩ := GameData.readsA2 (v := v) (e := none) (b := false) h
        (if s.camera_layout_mode.isSome then tag!"CLMO" else tag!"BOTM")
      rw [if_neg s.opsA2_ne] at hp
      refine ⟨if s.bg_enable_fss.isSome then tag!"EFSS" else p,
        GameData.readsA1.append (hA2.append ((GameData.efss_reads _ rfl).congr ?_))⟩
      have e : (if v = 1080 ∧ s.bg_enable_fss.isSome = true ∧ p ≠ tag!"BOTM" then true else false)
          = s.flagAfter v := by
        unfold GameData.flagAfter
        rcases hc with hc | hc
        · have : v ≠ 1080 := by rintro rfl; exact absurd hc (by decide)
          simp [this]
        · rw [hc]; cases s.bg_enable_fss <;> by_cases hv : v = 1080 <;> simp [hv, hp]
      simp only [e]
      rfl
  obtain ⟨p, head⟩ := head
  have tail : GReads v (s.opsB ++ (s.opsC ++ (s.opsD ++ (s.opsE ++ s.opsF))))
      { GameData.default with toGDView := s'.toGDView } s' :=
    (GameData.readsB (s := s') h').append <| (GameData.readsC (s := s') h').append <|
      (GameData.readsD (s := s') h').append <| (GameData.readsE (s := s') h').append <|
      GameData.readsF (s := s') h' hf'
  obtain ⟨p', -, tail⟩ := tail p
  refine ⟨p', ?_⟩
  have := head.append tail
  simpa only [List.flatten_cons, List.flatten_nil, List.append_nil, List.append_assoc] using this

theorem GameData.arms_inv {v : UInt32} : GArmsInv GameData.Fields (GameData.arms v) :=
  GameData.armsA_inv.append <| GameData.armsB_inv.append <| GameData.armsC_inv.append <|
    GameData.armsD_inv.append <| GameData.armsE_inv.append <| GameData.armsF_inv.append <|
    .cons other_inv .nil

theorem GameData.arms_beta {v : UInt32} : GArmsInv (BetaOk v) (GameData.arms v) :=
  GameData.armsA_beta.append <| GameData.armsB_beta.append <| GameData.armsC_beta.append <|
    GameData.armsD_beta.append <| GameData.armsE_beta.append <| GameData.armsF_beta.append <|
    .cons other_inv .nil

/-! ### C12 -/

/-- **C12.** Whatever the version, game data whose texts and tables fit the format can be written, and
reading the result at the same version gives back every field; only the beta flag is recomputed, from
the position of the EFSS record. -/
theorem C12_gamedata_read_back (v : UInt32) (gd : GameData) (h : gd.Fields) (hf : gd.Fits) :
    ∃ bs, gd.write v = .ok bs ∧
      GameData.read v bs = .ok { gd with is_10_8_0_beta1_to_beta4 := gd.flagAfter v } := by
  obtain ⟨p, hr⟩ := GameData.reads (v := v) h hf
  obtain ⟨bs, h1, h2⟩ := hr.roundtrip
  exact ⟨bs, h1, by unfold GameData.read; rw [h2]⟩

theorem GameData.flagAfter_eq {v : UInt32} {gd : GameData} (h : gd.EfssOk v) :
    gd.flagAfter v = gd.is_10_8_0_beta1_to_beta4 := by
  unfold GameData.flagAfter
  obtain ⟨h1, h2⟩ := h
  cases hb : gd.is_10_8_0_beta1_to_beta4 with
  | true => obtain ⟨rfl, he⟩ := h1 hb; simp [he]
  | false =>
    by_cases hv : v = 1080
    · cases he : gd.bg_enable_fss with
      | none => simp
      | some b => rw [h2 hv hb (by rw [he]; rfl)]; simp
    · simp [hv]

/-- **C12.** Game data that satisfies the conditions of the format reads back equal, in every version. -/
theorem C12_gamedata_roundtrip (v : UInt32) (gd : GameData) (h : gd.WF v) :
    ∃ bs, gd.write v = .ok bs ∧ GameData.read v bs = .ok gd := by
  obtain ⟨bs, h1, h2⟩ := C12_gamedata_read_back v gd h.1 h.2.1
  refine ⟨bs, h1, ?_⟩
  rw [h2, GameData.flagAfter_eq h.2.2]

theorem writeOk_of {r : Res Bytes}
    (h : (match r with | .ok d => decide (4 + d.length < 2 ^ 32) | .error _ => false) = true) :
    ∃ bs, r = .ok bs ∧ RecordData bs := by
  cases r with
  | ok d => exact ⟨d, rfl, by simpa [RecordData] using h⟩
  | error e => cases h

theorem GameData.sample_fits : GameData.sample.Fits := by
  refine ⟨by decide, by decide, ?_, ?_, ?_⟩
  · intro l hl; cases hl; decide
  · intro m hm
    have : m = Material.sample := List.mem_singleton.1 hm
    subst this
    exact writeOk_of (by decide +kernel)
  · intro p hp
    have : p = ⟨RenderProbe.sample, [1, 2]⟩ := List.mem_singleton.1 hp
    subst this
    exact writeOk_of (by decide +kernel)

/-- game data with every optional part present, of the 10.8.0 beta versions and of an older version -/
example : GameData.sample.WF 1080 :=
  ⟨GameData.sample_fields, GameData.sample_fits, ⟨fun _ => ⟨rfl, rfl⟩, fun _ h => by cases h⟩⟩

example : GameData.WF 1072 { GameData.sample with is_10_8_0_beta1_to_beta4 := false } :=
  ⟨GameData.sample_fields, GameData.sample_fits, ⟨(fun h => by cases h), fun h => by cases h⟩⟩

theorem GameData.read_inv {v : UInt32} {bs : Bytes} {gd : GameData} (h : GameData.read v bs = .ok gd) :
    gd.Fields ∧ BetaOk v gd := by
  unfold GameData.read at h
  split at h
  · cases h
  · next st hr =>
    cases h
    exact ⟨readStruct_inv (Inv := fun st : GDState => st.gd.Fields) GameData.arms_inv
        GameData.default_fields hr,
      readStruct_inv (Inv := fun st : GDState => BetaOk v st.gd) GameData.arms_beta
        (by intro h; cases h) hr⟩

/-- **C12.** Game data read from any bytes has representable texts; if its material counts agree with
its tables, it can be written and read again without loss, except that a camera layout mode in a
table of version 1080 can set the beta flag. -/
theorem C12_gamedata_reread (v : UInt32) (bs : Bytes) (gd : GameData) (h : GameData.read v bs = .ok gd)
    (hf : gd.Fits)
    (hc : v = 1080 → gd.is_10_8_0_beta1_to_beta4 = false → gd.bg_enable_fss.isSome →
      gd.camera_layout_mode = none) :
    ∃ bs', gd.write v = .ok bs' ∧ GameData.read v bs' = .ok gd :=
  C12_gamedata_roundtrip v gd ⟨(GameData.read_inv h).1, hf, (GameData.read_inv h).2, hc⟩

/-- **C12.** From the second reading on nothing changes any more: what was written and read once is
written and read without loss. -/
theorem C12_gamedata_stable (v : UInt32) (gd gd' : GameData) (bs : Bytes) (h : gd.Fields)
    (hf : gd.Fits) (hw : gd.write v = .ok bs) (hr : GameData.read v bs = .ok gd') :
    ∃ bs', gd'.write v = .ok bs' ∧ GameData.read v bs' = .ok gd' := by
  obtain ⟨b, h1, h2⟩ := C12_gamedata_read_back v gd h hf
  rw [hw] at h1; cases h1
  rw [hr] at h2; cases h2
  obtain ⟨b', h3, h4⟩ := C12_gamedata_read_back v
    { gd with is_10_8_0_beta1_to_beta4 := gd.flagAfter v } h hf
  refine ⟨b', h3, ?_⟩
  rw [h4]
  congr 2
  unfold GameData.flagAfter
  cases gd.camera_layout_mode <;> cases gd.bg_enable_fss <;>
    cases gd.is_10_8_0_beta1_to_beta4 <;> by_cases hv : v = 1080 <;> simp [hv]

/-! ### C13 -/

theorem GameData.good {v : UInt32} {s : GameData} (h : s.Fields) (hf : s.Fits) :
    ∀ op ∈ s.ops v, op.Good := by
  obtain ⟨_, hr⟩ := GameData.reads (v := v) h hf
  exact hr.good

theorem GameData.write_bytes {v : UInt32} {s : GameData} (h : s.Fields) (hf : s.Fits) :
    s.write v = .ok (bytesOf (s.ops v) ++ endbBytes) := writeBiff_ok _ (GameData.good h hf)

/-- Where the writer puts the EFSS record: directly behind the table bounds (`false`) or behind the
settings of the desktop view (`true`). -/
def GameData.efssIsLate (v : UInt32) (s : GameData) : Bool :=
  v < 1080 || s.is_10_8_0_beta1_to_beta4

theorem GameData.ops_early {v : UInt32} {s : GameData} (h : s.efssIsLate v = false) :
    s.efssEarly v = opt (wBool tag!"EFSS") s.bg_enable_fss ∧ s.efssLate v = [] := by
  unfold GameData.efssIsLate at h
  simp only [Bool.or_eq_false_iff, decide_eq_false_iff_not] at h
  unfold GameData.efssEarly GameData.efssLate
  rw [if_pos ⟨UInt32.not_lt.1 h.1, by simp [h.2]⟩, if_neg (by simp [h.1, h.2])]
  exact ⟨rfl, rfl⟩

theorem GameData.ops_late {v : UInt32} {s : GameData} (h : s.efssIsLate v = true) :
    s.efssEarly v = [] ∧ s.efssLate v = opt (wBool tag!"EFSS") s.bg_enable_fss := by
  unfold GameData.efssIsLate at h
  simp only [Bool.or_eq_true, decide_eq_true_eq] at h
  unfold GameData.efssEarly GameData.efssLate
  rw [if_pos h, if_neg]
  · exact ⟨rfl, rfl⟩
  · rintro ⟨h1, h2⟩
    rcases h with h | h
    · exact UInt32.not_le.2 h h1
    · exact h2 h

/-- **C13.** The position of the EFSS record in the file: behind the table bounds and the camera layout
mode, or behind the settings of the desktop view. -/
theorem C13_position (v : UInt32) (gd : GameData) (h : gd.Fields) (hf : gd.Fits) (b : Bool)
    (he : gd.bg_enable_fss = some b) :
    ∃ after, gd.write v = .ok (bytesOf gd.opsA1 ++
      ((if gd.efssIsLate v then bytesOf gd.opsA2 ++ (wBool tag!"EFSS" b).bytes
        else (wBool tag!"EFSS" b).bytes ++ bytesOf gd.opsA2) ++ after)) := by
  rw [GameData.write_bytes h hf]
  refine ⟨bytesOf (gd.opsB ++ (gd.opsC ++ (gd.opsD ++ (gd.opsE ++ gd.opsF)))) ++ endbBytes, ?_⟩
  unfold GameData.ops
  cases hl : gd.efssIsLate v with
  | true => rw [(GameData.ops_late hl).1, (GameData.ops_late hl).2, he]; simp [bytesOf, opt]
  | false => rw [(GameData.ops_early hl).1, (GameData.ops_early hl).2, he]; simp [bytesOf, opt]

theorem bytesOf_cons_u32 (t : Tag) (x : UInt32) (l : List WOp) :
    bytesOf (wU32 t x :: l) = le32 8 ++ (tagBytes t ++ (le32 x ++ bytesOf l)) := by
  simp only [bytesOf, List.flatMap_cons, wU32, WOp.bytes, le32_length, List.append_assoc]
  rfl

theorem GameData.opsA2_bytes (s : GameData) : ∃ t x rest, t ≠ tag!"EFSS" ∧ ValidTag t ∧
    bytesOf s.opsA2 = le32 8 ++ (tagBytes t ++ (le32 x ++ rest)) := by
  unfold GameData.opsA2
  cases s.bg_view_mode_desktop with
  | none =>
    simp only [opt, List.flatten_cons, List.nil_append, List.singleton_append]
    exact ⟨tag!"ROTA", s.bg_rotation_desktop, _, by decide, by decide, bytesOf_cons_u32 _ _ _⟩
  | some m =>
    simp only [opt, List.flatten_cons, List.singleton_append]
    exact ⟨tag!"VSM0", m.toU32, _, by decide, by decide, bytesOf_cons_u32 _ _ _⟩

/-- **C13.** Writing game data, reading it back and writing it again gives the same bytes, exactly if
there is no EFSS record or it is written in the place where the reader looks for it: behind the desktop
view in the betas of version 1080; directly behind the bounds, with no camera layout mode between
them, in other tables of version 1080; and with no beta flag in later versions. -/
theorem C13_rewrite_identical_iff (v : UInt32) (gd gd' : GameData) (bs : Bytes) (h : gd.Fields)
    (hf : gd.Fits) (hw : gd.write v = .ok bs) (hr : GameData.read v bs = .ok gd') :
    gd'.write v = .ok bs ↔
      (gd.bg_enable_fss = none ∨ v < 1080 ∨
        (v = 1080 ∧ (gd.is_10_8_0_beta1_to_beta4 = true ∨ gd.camera_layout_mode = none)) ∨
        (v > 1080 ∧ gd.is_10_8_0_beta1_to_beta4 = false)) := by
  obtain ⟨b, h1, h2⟩ := C12_gamedata_read_back v gd h hf
  rw [hw] at h1; cases h1
  rw [hr] at h2; cases h2
  have h' : GameData.Fields { gd with is_10_8_0_beta1_to_beta4 := gd.flagAfter v } := h
  have hf' : GameData.Fits { gd with is_10_8_0_beta1_to_beta4 := gd.flagAfter v } := hf
  constructor
  · intro hw2
    cases he : gd.bg_enable_fss with
    | none => exact .inl rfl
    | some e =>
      refine .inr ?_
      by_cases hlt : v < 1080
      · exact .inl hlt
      refine .inr ?_
      obtain ⟨x, hx⟩ := C13_position v gd h hf e he
      obtain ⟨y, hy⟩ := C13_position v _ h' hf' e he
      rw [hw] at hx; rw [hw2] at hy
      obtain ⟨t, a, rest, ht, hvt, hb⟩ := gd.opsA2_bytes
      have key : ∀ p q : Bytes, (wBool tag!"EFSS" e).bytes ++ p ≠ bytesOf gd.opsA2 ++ q := by
        intro p q hpq
        rw [hb] at hpq
        have e1 : (wBool tag!"EFSS" e).bytes = le32 8 ++ (tagBytes tag!"EFSS" ++ pBool e) := by
          cases e <;> rfl
        rw [e1] at hpq
        simp only [List.append_assoc] at hpq
        have := List.append_cancel_left hpq
        have h5 := (List.append_inj this (by rw [tagBytes_length, tagBytes_length])).1
        exact ht (hvt.2.symm.trans (by rw [← h5]; decide))
      have hxy := Except.ok.inj (hx.symm.trans hy)
      have hxy := List.append_cancel_left hxy
      have hl : gd.efssIsLate v
          = GameData.efssIsLate v { gd with is_10_8_0_beta1_to_beta4 := gd.flagAfter v } := by
        cases h3 : gd.efssIsLate v <;>
          cases h4 : GameData.efssIsLate v { gd with is_10_8_0_beta1_to_beta4 := gd.flagAfter v } <;>
          simp only [h3, h4, if_true, if_false, Bool.false_eq_true, List.append_assoc] at hxy ⊢
        · exact absurd hxy (key _ _)
        · exact absurd hxy.symm (key _ _)
      unfold GameData.efssIsLate at hl
      simp only [hlt, decide_false, Bool.false_or] at hl
      unfold GameData.flagAfter at hl
      by_cases hv : v = 1080
      · refine .inl ⟨hv, ?_⟩
        cases hb : gd.is_10_8_0_beta1_to_beta4 with
        | true => exact .inl rfl
        | false =>
          rw [hb, he] at hl
          cases hc : gd.camera_layout_mode with
          | none => exact .inr rfl
          | some c => simp [hv, hc] at hl
      · refine .inr ⟨?_, by simpa [hv] using hl⟩
        have : v ≥ 1080 := UInt32.not_lt.1 hlt
        rcases UInt32.lt_or_eq_of_le this with h | h
        · exact h
        · exact absurd h.symm hv
  · intro hc
    have ho : GameData.ops v { gd with is_10_8_0_beta1_to_beta4 := gd.flagAfter v } = gd.ops v := by
      unfold GameData.ops
      have hE : GameData.efssEarly v { gd with is_10_8_0_beta1_to_beta4 := gd.flagAfter v }
            = gd.efssEarly v ∧
          GameData.efssLate v { gd with is_10_8_0_beta1_to_beta4 := gd.flagAfter v }
            = gd.efssLate v := by
        unfold GameData.efssEarly GameData.efssLate GameData.flagAfter
        rcases hc with hc | hc | ⟨rfl, hc⟩ | ⟨hv, hc⟩
        · simp [hc, opt]
        · have : ¬ v ≥ 1080 := UInt32.not_le.2 hc
          simp [hc, this]
        · cases he : gd.bg_enable_fss with
          | none => simp [opt]
          | some e =>
            rcases hc with hc | hc <;> simp [hc]
        · have : v ≠ 1080 := by rintro rfl; exact absurd hv (by decide)
          simp [this, hc]
      rw [hE.1, hE.2]
      rfl
    unfold GameData.write at hw ⊢
    rw [ho]; exact hw

/-- **C13**, what a user can rely on: game data that was read from a file, at any version, is written
with the EFSS record in a place where the next reader sees the same flag, unless it is of version 1080
with a camera layout mode and without the beta flag. (The full property, without the exception, is
false: see `C13_camera_layout_moves_efss`.) -/
theorem C13_reread_identical_partial (v : UInt32) (file : Bytes) (gd : GameData)
    (hr : GameData.read v file = .ok gd) (hf : gd.Fits)
    (hc : v = 1080 → gd.is_10_8_0_beta1_to_beta4 = true ∨ gd.camera_layout_mode = none) :
    ∃ bs gd', gd.write v = .ok bs ∧ GameData.read v bs = .ok gd' ∧ gd'.write v = .ok bs := by
  obtain ⟨h, hb⟩ := GameData.read_inv hr
  obtain ⟨bs, h1, h2⟩ := C12_gamedata_read_back v gd h hf
  refine ⟨bs, _, h1, h2, (C13_rewrite_identical_iff v gd _ bs h hf h1 h2).2 ?_⟩
  by_cases hlt : v < 1080
  · exact .inr (.inl hlt)
  by_cases hv : v = 1080
  · exact .inr (.inr (.inl ⟨hv, hc hv⟩))
  · refine .inr (.inr (.inr ⟨?_, ?_⟩))
    · rcases UInt32.lt_or_eq_of_le (UInt32.not_lt.1 hlt) with h | h
      · exact h
      · exact absurd h.symm hv
    · cases hx : gd.is_10_8_0_beta1_to_beta4 with
      | false => rfl
      | true => exact absurd (hb hx).1 hv

/-- **C13** is false with a camera layout mode: at version 1080 the flag of every table with an EFSS
record and a camera layout mode is set by reading, and the next write moves the record. -/
theorem C13_camera_layout_moves_efss (gd gd' : GameData) (bs : Bytes) (h : gd.Fields) (hf : gd.Fits)
    (hb : gd.is_10_8_0_beta1_to_beta4 = false) (he : gd.bg_enable_fss.isSome)
    (hc : gd.camera_layout_mode.isSome) (hw : gd.write 1080 = .ok bs)
    (hr : GameData.read 1080 bs = .ok gd') :
    gd'.is_10_8_0_beta1_to_beta4 = true ∧ gd'.write 1080 ≠ .ok bs := by
  constructor
  · obtain ⟨b, h1, h2⟩ := C12_gamedata_read_back 1080 gd h hf
    rw [hw] at h1; cases h1
    rw [hr] at h2; cases h2
    simp [GameData.flagAfter, he, hc]
  · intro h3
    have := (C13_rewrite_identical_iff 1080 gd gd' bs h hf hw hr).1 h3
    rcases this with h | h | ⟨-, h | h⟩ | ⟨h, -⟩
    · rw [h] at he; cases he
    · exact absurd h (by decide)
    · rw [hb] at h; cases h
    · rw [h] at hc; cases hc
    · exact absurd h (by decide)

/-- such tables exist -/
example : let gd := { GameData.sample with is_10_8_0_beta1_to_beta4 := false }
    gd.Fields ∧ gd.Fits ∧ gd.is_10_8_0_beta1_to_beta4 = false ∧ gd.bg_enable_fss.isSome ∧
      gd.camera_layout_mode.isSome ∧ (∃ bs, gd.write 1080 = .ok bs) :=
  ⟨GameData.sample_fields, GameData.sample_fits, rfl, rfl, rfl,
    ⟨_, GameData.write_bytes GameData.sample_fields GameData.sample_fits⟩⟩

/-! ### C06 and C07 for game data -/

/-- **C07.** Reading any bytes as game data ends with a value, a panic or an input error. -/
theorem C07_gamedata_read_terminates (v : UInt32) (data : Bytes) :
    GameData.read v data ≠ .error .fuel := by
  intro h
  unfold GameData.read readStruct at h
  have ht := (readWith_tame (GameData.arms_tame (v := v)) ⟨GameData.default, 0⟩).mono (Rd.new data)
  revert h
  cases hx : readWith (GameData.arms v) ⟨GameData.default, 0⟩ (Rd.new data) with
  | ok x => intro h; cases h
  | error e => intro h; cases h; exact ht.1 hx

/-- **C06.** At any record boundary inside game data, a record with a name the reader does not know can
be inserted without changing the result of reading; in version 1080 not directly behind the BOTM
record, because there the reader takes the next record but one for a sign of a beta version. -/
theorem C06_gamedata_unknown_record_ignored (v : UInt32) (pre post name payload : Bytes) (n : Nat)
    (s' : GDState) (r' : Rd)
    (hv : Visits (dispatch (GameData.arms v)) n ⟨GameData.default, 0⟩ (Rd.new (pre ++ post)) s' r')
    (hr : r'.rest.drop r'.brr = post) (hb : v = 1080 → s'.prev ≠ tag!"BOTM") (hpost : post ≠ [])
    (hn : RecordName name) (hne : name ≠ endbName) (hp : 4 + payload.length < 2 ^ 32)
    (hu : nameTag name ∉ (GameData.arms v).map (·.1)) :
    GameData.read v (pre ++ (recordBytes name payload ++ post)) = GameData.read v (pre ++ post) :=
  GameData.skip hv hr hb hpost hn hne hp hu

/-- the boundary behind a LEFT record, at version 1080 -/
example : ∃ n s' r', Visits (dispatch (GameData.arms 1080)) n ⟨GameData.default, 0⟩
      (Rd.new (recordBytes [0x4c, 0x45, 0x46, 0x54] [0, 0, 0x80, 0x3f] ++ recordBytes endbName [])) s' r'
      ∧ r'.rest.drop r'.brr = recordBytes endbName [] ∧ s'.prev ≠ tag!"BOTM" ∧
      nameTag [0x58, 0x59, 0x5a, 0x5a] ∉ (GameData.arms 1080).map (·.1) :=
  ⟨1, _, _, .record (by rfl) (by rfl) (by rfl) (.here _ _), by rfl, by decide, by decide +kernel⟩

/-- **C06** is false there: behind BOTM an unknown record changes what version 1080 reads. -/
theorem C06_gamedata_behind_botm_counterexample :
    let pre := recordBytes [0x42, 0x4f, 0x54, 0x4d] [0, 0, 0, 0]
    let post := recordBytes [0x45, 0x46, 0x53, 0x53] [1, 0, 0, 0] ++ recordBytes endbName []
    GameData.read 1080 (pre ++ (recordBytes [0x58, 0x59, 0x5a, 0x5a] [] ++ post))
      ≠ GameData.read 1080 (pre ++ post) := by
  intro pre post h
  have : (GameData.read 1080 (pre ++ (recordBytes [0x58, 0x59, 0x5a, 0x5a] [] ++ post))).toOption.map
        (·.is_10_8_0_beta1_to_beta4)
      ≠ (GameData.read 1080 (pre ++ post)).toOption.map (·.is_10_8_0_beta1_to_beta4) := by
    decide +kernel
  exact this (by rw [h])

end Vpin
