import Verif.Lemmas.SceneMaterials
import Verif.Props.FileNames
/-
The whole export: its MTL file, its images, and when it succeeds.
-/
namespace Vpin
open Scene

/-- what `MtlInv` looks at -/
theorem ImgInv.congr {E : ExpandEnv} {images : List ImageData} {s s' : ObjState} (h : ImgInv E images s)
    (h1 : s'.filenames = s.filenames) (h2 : s'.used = s.used) (h3 : s'.images = s.images) : ImgInv E images s' := by
  have e : ∀ t, fileOf s' t = fileOf s t := fun t => by unfold fileOf; rw [h1]
  refine ⟨?_, ?_, ?_, ?_⟩
  · intro t f hf
    rw [h3]
    exact h.found t f (by rw [← e]; exact hf)
  · rw [h2, h3]; exact h.used
  · rw [h2]; exact h.distinct
  · rw [h3]
    intro p hp
    obtain ⟨t, ht⟩ := h.needed p hp
    exact ⟨t, by rw [e]; exact ht⟩

variable [Arith]

theorem MtlInv.congr {E : ExpandEnv} {o : ObjExportOptions} {vpx : VPX} {us : List Use} {s s' : ObjState}
    (h : MtlInv E o vpx us s) (h1 : s'.filenames = s.filenames) (h2 : s'.used = s.used) (h3 : s'.images = s.images)
    (h4 : s'.mtl = s.mtl) (h5 : s'.seen = s.seen) : MtlInv E o vpx us s' := by
  have e : ∀ t, fileOf s' t = fileOf s t := fun t => by unfold fileOf; rw [h1]
  have e2 : useSection E o vpx s' = useSection E o vpx s := by
    funext u
    unfold useSection mapOf
    rw [show fileOf s' = fileOf s from funext e]
  refine ⟨h.img.congr h1 h2 h3, ?_, ?_, ?_, ?_⟩
  · rw [h4, e2]; exact h.mtl
  · rw [h5]; exact h.seen
  · intro hx u hu t ht; rw [e]; exact h.files hx u hu t ht
  · intro t f hf; rw [e] at hf; exact h.only t f hf

theorem writeBlock_mtl {E : ExpandEnv} {o : ObjExportOptions} {vpx : VPX} {us : List Use} {b : Block} {s s' : ObjState}
    (hb : solid b = true) (hi : MtlInv E o vpx us s) (h : writeBlock E o vpx s b = .ok s') :
    MtlInv E o vpx (us ++ uses [b]) s' := by
  have hb' : ¬ (b.vertices.isEmpty || b.faces.isEmpty) = true := by
    unfold solid at hb
    cases h1 : b.vertices.isEmpty <;> cases h2 : b.faces.isEmpty <;> simp_all
  unfold writeBlock at h
  rw [if_neg hb'] at h
  obtain ⟨s1, h1, h⟩ := Res.unbind h
  obtain ⟨fs, h2, h⟩ := Res.unbind h
  have key : MtlInv E o vpx (us ++ uses [b]) s1 := by
    unfold useMaterial at h1
    cases hm : b.material with
    | none =>
      rw [hm] at h1
      cases h1
      simp only [uses, List.filterMap_cons, hm, Option.map_none, List.filterMap_nil, List.append_nil]
      exact hi.congr rfl rfl rfl rfl rfl
    | some m =>
      rw [hm] at h1
      obtain ⟨⟨n, s2⟩, h3, h1⟩ := Res.unbind h1
      cases h1
      simp only [uses, List.filterMap_cons, hm, Option.map_some, List.filterMap_nil]
      refine (emit_spec ?_ h3).congr rfl rfl rfl rfl rfl
      exact hi.congr rfl rfl rfl rfl rfl
  cases h
  cases b.smoothing
  · exact key.congr rfl rfl rfl rfl rfl
  · exact key.congr rfl rfl rfl rfl rfl

theorem writeBlocks_mtl {E : ExpandEnv} {o : ObjExportOptions} {vpx : VPX} : ∀ {bs : List Block} {us : List Use}
    {s s' : ObjState}, MtlInv E o vpx us s → bs.foldlM (writeBlock E o vpx) s = .ok s' →
    MtlInv E o vpx (us ++ uses (bs.filter solid)) s' := by
  intro bs
  induction bs with
  | nil => intro us s s' hi h; cases h; simpa [uses] using hi
  | cons b bs ih =>
    intro us s s' hi h
    rw [List.foldlM_cons] at h
    obtain ⟨s1, h1, h⟩ := Res.unbind h
    cases hb : solid b with
    | false =>
      rw [writeBlock_hollow hb] at h1
      cases h1
      rw [List.filter_cons_of_neg (by simp [hb])]
      exact ih hi h
    | true =>
      rw [List.filter_cons_of_pos hb]
      have := ih (writeBlock_mtl hb hi h1) h
      rw [List.append_assoc] at this
      have e : uses [b] ++ uses (bs.filter solid) = uses (b :: bs.filter solid) := by
        unfold uses
        rw [← List.filterMap_append]
        rfl
      rw [e] at this
      exact this

theorem MtlInv.start (E : ExpandEnv) (o : ObjExportOptions) (vpx : VPX) (f : Str) :
    MtlInv E o vpx [] (ObjState.start f) := by
  refine ⟨⟨?_, rfl, List.nodup_nil, ?_⟩, rfl, ?_, ?_, ?_⟩
  · intro t f h; cases h
  · intro p hp; cases hp
  · intro k; simp [ObjState.start]
  · intro _ u hu; cases hu
  · intro t f h; cases h

/-- the blocks of an export, and the state at its end -/
theorem export_blocks {E : ExpandEnv} {S : Stock} {fuel : Nat} {o : ObjExportOptions} {vpx : VPX} {mtlFile : Str}
    {out : ObjExport} (h : exportObj E S fuel o vpx mtlFile = .ok out) :
    ∃ bss s, vpx.gameitems.mapM (itemBlocks E.Z S fuel o vpx) = .ok bss ∧
      MtlInv E o vpx (uses ((playfieldBlock vpx.gamedata :: bss.flatten).filter solid)) s ∧
      out.obj = s.obj ∧ out.mtl = s.mtl ∧ out.images = s.images := by
  unfold exportObj at h
  obtain ⟨s1, h1, h⟩ := Res.unbind h
  obtain ⟨s2, h2, h⟩ := Res.unbind h
  cases h
  obtain ⟨bss, h3, h4⟩ := writeItems_blocks h2
  refine ⟨bss, s2, h3, ?_, rfl, rfl, rfl⟩
  have hf : (playfieldBlock vpx.gamedata :: bss.flatten).foldlM (writeBlock E o vpx) (ObjState.start mtlFile) = .ok s2 := by
    rw [List.foldlM_cons, Res.thenOk h1]; exact h4
  exact writeBlocks_mtl (MtlInv.start E o vpx mtlFile) hf

/-! ### Reading the MTL file -/

theorem materialByName_look (g : GameData) (name : Str) (map : Option Str) (n : Str) :
    mtlBlock g n name map = .newmtl n :: lookLines (lookOf g name) map := by
  have key : ∀ (m : Option MaterialView) (l : Option Look),
      m.map (fun m => (⟨m.base_color, if m.is_metal then m.base_color else m.glossy_color,
        if m.opacity_active then m.opacity else f32One⟩ : Look)) = l →
      materialByName g name = m → mtlBlock g n name map = .newmtl n :: lookLines l map := by
    intro m l hl hm
    subst hl
    unfold mtlBlock lookLines
    rw [hm]
    cases m with
    | none => rfl
    | some m =>
      rcases m with ⟨c1, c2, op, act, met⟩
      cases met <;> cases act <;> rfl
  refine key _ _ ?_ rfl
  unfold materialByName lookOf eqIgnoreAsciiCase
  cases name with
  | nil => rfl
  | cons c cs =>
    rw [if_neg (by simp), if_neg (by simp)]
    cases (g.materials.getD []).find? fun m => m.name.map asciiLower == (c :: cs).map asciiLower with
    | some m => simp
    | none =>
      dsimp only
      cases g.materials_old.find? fun m => m.name.map asciiLower == (c :: cs).map asciiLower with
      | none => rfl
      | some m =>
        have e : (m.opacity_active_edge_alpha &&& 1 != 0) = decide (m.opacity_active_edge_alpha.toNat % 2 = 1) := by
          have e1 : (m.opacity_active_edge_alpha &&& 1).toNat = m.opacity_active_edge_alpha.toNat % 2 := by
            rw [UInt8.toNat_and]
            exact Nat.and_one_is_mod _
          rw [← e1]
          have e2 : (m.opacity_active_edge_alpha &&& 1).toNat < 2 := by rw [e1]; omega
          by_cases h0 : m.opacity_active_edge_alpha &&& 1 = 0
          · rw [h0]; rfl
          · have : (m.opacity_active_edge_alpha &&& 1).toNat ≠ 0 := by
              intro h; exact h0 (UInt8.toNat_inj.mp h)
            have h1 : (m.opacity_active_edge_alpha &&& 1).toNat = 1 := by omega
            rw [h1]
            show (!(_ == _)) = _
            rw [beq_eq_false_iff_ne.mpr h0]
            rfl
        simp [e]

omit [Arith] in
theorem sections_use : ∀ {body rest : List MtlLine}, (∀ l ∈ body, ∀ x, l ≠ .newmtl x) →
    sections (body ++ rest) = (body ++ (sections rest).1, (sections rest).2) := by
  intro body rest
  induction body with
  | nil => intro _; rfl
  | cons l body ih =>
    intro h
    have ih := ih fun x hx => h x (by simp [hx])
    rw [List.cons_append]
    cases l with
    | newmtl x => exact absurd rfl (h _ (by simp) x)
    | _ => simp [sections, ih]

theorem lookLines_plain (l : Option Look) (map : Option Str) : ∀ x ∈ lookLines l map, ∀ n, x ≠ .newmtl n := by
  unfold lookLines
  cases l <;> cases map <;> simp

theorem materials_flatMap {α : Type} (name : α → Str) (body : α → List MtlLine)
    (h : ∀ a, ∀ l ∈ body a, ∀ n, l ≠ .newmtl n) : ∀ as : List α,
    sections (as.flatMap fun a => .newmtl (name a) :: body a) = ([], as.map fun a => (name a, body a)) := by
  intro as
  induction as with
  | nil => rfl
  | cons a as ih =>
    rw [List.flatMap_cons, List.cons_append]
    simp only [sections]
    rw [sections_use (h a), ih]
    simp

/-- the sections of the MTL file -/
theorem MtlInv.sections {E : ExpandEnv} {o : ObjExportOptions} {vpx : VPX} {us : List Use} {s : ObjState}
    (h : MtlInv E o vpx us s) :
    Scene.sections s.mtl = ([.comment "VPin table mat file".toList],
      (kept (onceUse E o vpx) [] us).map fun u =>
        (mtlName E.sanitize o.extract_textures u.1 u.2, lookLines (lookOf vpx.gamedata u.1) (mapOf o s u.2))) := by
  rw [h.mtl]
  have e : useSection E o vpx s = fun u => .newmtl (mtlName E.sanitize o.extract_textures u.1 u.2) ::
      lookLines (lookOf vpx.gamedata u.1) (mapOf o s u.2) := by
    funext u
    exact materialByName_look _ _ _ _
  rw [e]
  simp only [Scene.sections]
  rw [materials_flatMap _ _ (fun u => lookLines_plain _ _)]

/-! ### When an export succeeds -/

section
omit [Arith]

theorem Res.bind_total {α β : Type} {x : Res α} {f : α → Res β} (h : ∃ a, x = .ok a) (hf : ∀ a, ∃ b, f a = .ok b) :
    ∃ b, (x >>= f) = .ok b := by
  obtain ⟨a, rfl⟩ := h
  exact hf a

/-- the condition on lower-casing that makes the search for a free file name end -/
def LowerDedup (U : Unicode) : Prop := ∀ base ext (i j : Nat),
  U.lower (fileName (base ++ "_dedup".toList ++ decimal i) ext) =
    U.lower (fileName (base ++ "_dedup".toList ++ decimal j) ext) → i = j

theorem imageNameLoop_total {U : Unicode} {used : List Str} {base ext : Str} : ∀ {fuel c : Nat},
    (∃ i, c < i ∧ i ≤ c + fuel ∧ U.lower (fileName (base ++ "_dedup".toList ++ decimal i) ext) ∉ used) →
    ∃ r, imageNameLoop U used base ext fuel c = .ok r := by
  intro fuel
  induction fuel with
  | zero => rintro c ⟨i, h1, h2, _⟩; omega
  | succ f ih =>
    rintro c ⟨i, h1, h2, h3⟩
    unfold imageNameLoop
    dsimp only
    split
    · next hc =>
      refine ih ⟨i, ?_, by omega, h3⟩
      have : i ≠ c + 1 := by
        rintro rfl
        exact h3 (List.contains_iff_mem.mp hc)
      omega
    · exact ⟨_, rfl⟩

theorem dedup_free {U : Unicode} (hU : LowerDedup U) (used : List Str) (base ext : Str) (c : Nat) :
    ∃ i, c < i ∧ i ≤ c + (used.length + 1) ∧
      U.lower (fileName (base ++ "_dedup".toList ++ decimal i) ext) ∉ used := by
  refine Classical.byContradiction fun hno => ?_
  have hall : ∀ i < used.length + 1,
      U.lower (fileName (base ++ "_dedup".toList ++ decimal (c + 1 + i)) ext) ∈ used := by
    intro i hi
    refine Classical.byContradiction fun hc => hno ⟨c + 1 + i, by omega, by omega, hc⟩
  have h1 : ((List.range (used.length + 1)).map fun i =>
      U.lower (fileName (base ++ "_dedup".toList ++ decimal (c + 1 + i)) ext)).Nodup := by
    unfold List.Nodup
    rw [List.pairwise_map]
    refine List.Pairwise.imp ?_ List.nodup_range
    intro i j hne he
    have := hU _ _ _ _ he
    omega
  have h2 : ((List.range (used.length + 1)).map fun i =>
      U.lower (fileName (base ++ "_dedup".toList ++ decimal (c + 1 + i)) ext)) ⊆ used := by
    intro k hk
    obtain ⟨i, hi, rfl⟩ := List.mem_map.1 hk
    exact hall i (by simpa using hi)
  have := List.Nodup.length_le_of_subset h1 h2
  simp at this
  omega

theorem sanitizedImageFilename_total {E : ExpandEnv} (hU : LowerDedup E.U) (name ext : Str) (s : ObjState) :
    ∃ r, sanitizedImageFilename E name ext s = .ok r := by
  unfold sanitizedImageFilename
  dsimp only
  split
  · obtain ⟨r, h⟩ := imageNameLoop_total (dedup_free hU s.used (E.sanitize name) ext s.counter)
    exact ⟨_, by rw [Res.thenOk h]; rfl⟩
  · exact ⟨_, rfl⟩

theorem ensureImageWritten_total {E : ExpandEnv} (hU : LowerDedup E.U) {images : List ImageData}
    (hc : ∀ i ∈ images, ∀ r, contentOf E i = some r → ∃ bs, r = .ok bs) (t : Str) (s : ObjState) :
    ∃ r, ensureImageWritten E images t s = .ok r := by
  unfold ensureImageWritten
  split
  · exact ⟨_, rfl⟩
  · split
    · exact ⟨_, rfl⟩
    · next i hi =>
      split
      · exact ⟨_, rfl⟩
      · next content hp =>
        rw [imagePayload_eq] at hp
        have him : i ∈ images := by
          rw [imageByName_eq] at hi
          unfold imageOf at hi
          split at hi
          · cases hi
          · exact List.mem_of_find?_eq_some hi
        obtain ⟨bs, rfl⟩ := hc i him content hp
        obtain ⟨r, h⟩ := sanitizedImageFilename_total hU i.name i.ext s
        exact ⟨_, by rw [Res.thenOk h]; rfl⟩

end

theorem emitMtlBlock_total {E : ExpandEnv} (hU : LowerDedup E.U) {o : ObjExportOptions} {vpx : VPX}
    (hc : ∀ i ∈ vpx.images, ∀ r, contentOf E i = some r → ∃ bs, r = .ok bs) (m : Str) (t : Option Str) (s : ObjState) :
    ∃ r, emitMtlBlock E o vpx m t s = .ok r := by
  unfold emitMtlBlock
  refine Res.bind_total ?_ ?_
  · split
    · exact ensureImageWritten_total hU hc _ s
    · exact ⟨_, rfl⟩
  · rintro ⟨a, s1⟩
    dsimp only
    split <;> exact ⟨_, rfl⟩

theorem writeBlock_total {E : ExpandEnv} (hU : LowerDedup E.U) {o : ObjExportOptions} {vpx : VPX}
    (hc : ∀ i ∈ vpx.images, ∀ r, contentOf E i = some r → ∃ bs, r = .ok bs) {b : Block} {s : ObjState}
    (hr : CornersInside b) (hn : s.offset + b.vertices.length < 2 ^ 32) :
    ∃ s', writeBlock E o vpx s b = .ok s' := by
  unfold writeBlock
  split
  · exact ⟨_, rfl⟩
  · dsimp only
    have h1 : ∀ s : ObjState, ∃ s', useMaterial E o vpx b s = .ok s' ∧ s'.offset = s.offset := by
      intro s
      unfold useMaterial
      cases b.material with
      | none => exact ⟨_, rfl, rfl⟩
      | some m =>
        dsimp only
        obtain ⟨⟨n, s1⟩, h⟩ := emitMtlBlock_total hU hc m b.texture s (o := o)
        refine ⟨_, by rw [Res.thenOk h]; rfl, ?_⟩
        exact (emitMtlBlock_frame h).2.2
    obtain ⟨s1, h2, h3⟩ := h1 { s with obj := s.obj ++ .object b.name ::
      (b.vertices.map (positionLine o.units.scale b.translation) ++ b.vertices.map texcoordLine ++
        b.vertices.map normalLine) }
    rw [Res.thenOk h2]
    have h4 : (if b.smoothing = true then { s1 with obj := s1.obj ++ [.smooth] } else s1).offset = s.offset := by
      split <;> exact h3
    rw [h4, Res.thenOk (faces_eq hr hn)]
    exact ⟨_, rfl⟩

theorem writeBlocks_total {E : ExpandEnv} (hU : LowerDedup E.U) {o : ObjExportOptions} {vpx : VPX}
    (hc : ∀ i ∈ vpx.images, ∀ r, contentOf E i = some r → ∃ bs, r = .ok bs) : ∀ {bs : List Block} {s : ObjState},
    (∀ b ∈ bs, CornersInside b) → s.offset + vertexCount (bs.filter solid) < 2 ^ 32 →
    ∃ s', bs.foldlM (writeBlock E o vpx) s = .ok s' := by
  intro bs
  induction bs with
  | nil => intro s _ _; exact ⟨_, rfl⟩
  | cons b bs ih =>
    intro s hr hn
    rw [List.foldlM_cons]
    cases hb : solid b with
    | false =>
      rw [Res.thenOk (writeBlock_hollow hb)]
      rw [List.filter_cons_of_neg (by simp [hb])] at hn
      exact ih (fun x hx => hr x (by simp [hx])) hn
    | true =>
      rw [List.filter_cons_of_pos hb] at hn
      have hcount : vertexCount (b :: bs.filter solid) = b.vertices.length + vertexCount (bs.filter solid) := by
        simp [vertexCount]
      rw [hcount] at hn
      obtain ⟨s1, h1⟩ := writeBlock_total (o := o) hU hc (hr b (by simp)) (s := s) (by omega)
      obtain ⟨_, h3⟩ := writeBlock_spec hb (hr b (by simp)) (by omega) h1
      rw [Res.thenOk h1]
      exact ih (fun x hx => hr x (by simp [hx])) (by omega)

theorem writeItems_total {E : ExpandEnv} {S : Stock} {fuel : Nat} {o : ObjExportOptions} {vpx : VPX} {s' : ObjState} :
    ∀ {items : List GameItemEnum} {bss : List (List Block)} {s : ObjState},
    items.mapM (itemBlocks E.Z S fuel o vpx) = .ok bss → bss.flatten.foldlM (writeBlock E o vpx) s = .ok s' →
    items.foldlM (writeItem E S fuel o vpx) s = .ok s' := by
  intro items
  induction items with
  | nil => intro bss s h1 h2; cases h1; exact h2
  | cons i items ih =>
    intro bss s h1 h2
    rw [List.mapM_cons] at h1
    obtain ⟨bs, h3, h1⟩ := Res.unbind h1
    obtain ⟨bss', h4, h1⟩ := Res.unbind h1
    cases h1
    rw [List.flatten_cons, List.foldlM_append] at h2
    obtain ⟨s1, h5, h2⟩ := Res.unbind h2
    rw [List.foldlM_cons]
    have : writeItem E S fuel o vpx s i = .ok s1 := by
      unfold writeItem
      rw [Res.thenOk h3]
      exact h5
    rw [Res.thenOk this]
    exact ih h4 h2

theorem playfield_inside (g : GameData) : CornersInside (playfieldBlock g) := by
  intro f hf
  simp only [playfieldBlock, playfieldMesh, List.mem_cons, List.not_mem_nil, or_false] at hf
  rcases hf with rfl | rfl <;> simp [playfieldBlock, playfieldMesh]

theorem export_total {E : ExpandEnv} (hU : LowerDedup E.U) {S : Stock} {fuel : Nat} {o : ObjExportOptions} {vpx : VPX}
    {mtlFile : Str} (hc : ∀ i ∈ vpx.images, ∀ r, contentOf E i = some r → ∃ bs, r = .ok bs) {bss : List (List Block)}
    (h : vpx.gameitems.mapM (itemBlocks E.Z S fuel o vpx) = .ok bss)
    (hr : ∀ b ∈ bss.flatten, CornersInside b)
    (hn : vertexCount ((playfieldBlock vpx.gamedata :: bss.flatten).filter solid) < 2 ^ 32) :
    ∃ out, exportObj E S fuel o vpx mtlFile = .ok out := by
  obtain ⟨s', h1⟩ := writeBlocks_total (o := o) hU hc (bs := playfieldBlock vpx.gamedata :: bss.flatten)
    (s := ObjState.start mtlFile) (fun b hb => by
      rcases List.mem_cons.mp hb with rfl | hb
      · exact playfield_inside _
      · exact hr b hb) (by simpa [ObjState.start] using hn)
  rw [List.foldlM_cons] at h1
  obtain ⟨s1, h2, h1⟩ := Res.unbind h1
  unfold exportObj
  rw [Res.thenOk h2, Res.thenOk (writeItems_total h h1)]
  exact ⟨_, rfl⟩

end Vpin
