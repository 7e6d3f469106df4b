import Verif.Lemmas.ExpandedItems
/-
Each item is read from its files.
-/
namespace Vpin
variable (E : ExpandEnv)

/-- the directory of the items holds their files, and others only if they have a `-` in their names -/
structure ItemsDir (fmt : MeshFormat) (dir : Str) (fs : Files) (zs : List (Str × GameItemEnum)) : Prop where
  stems : Stems E fmt zs
  there : ∀ w ∈ itemsFiles E fmt zs, fs.get (joinPath dir w.1) = some w.2
  absent : ∀ f, '/' ∉ f → '-' ∉ f → f ∉ (itemsFiles E fmt zs).map (·.1) → fs.get (joinPath dir f) = none

theorem fileName_no_slash {s e : Str} (h1 : '/' ∉ s) (h2 : '/' ∉ e) : '/' ∉ fileName s e := by
  unfold fileName
  intro h
  rw [List.mem_append, List.mem_append] at h
  rcases h with (h | h) | h
  · exact h1 h
  · exact absurd h (by decide)
  · exact h2 h

theorem frameStem_no_slash {s : Str} (h1 : '/' ∉ s) (i : Nat) : '/' ∉ frameStem s i := by
  unfold frameStem
  intro h
  rw [List.mem_append, List.mem_append] at h
  rcases h with (h | h) | h
  · exact h1 h
  · exact absurd h (by decide)
  · exact decimal_no_slash i h

theorem fileName_no_dash {s e : Str} (h1 : '-' ∉ s) (h2 : '-' ∉ e) : '-' ∉ fileName s e := by
  unfold fileName
  intro h
  rw [List.mem_append, List.mem_append] at h
  rcases h with (h | h) | h
  · exact h1 h
  · exact absurd h (by decide)
  · exact h2 h

theorem frameStem_no_dash {s : Str} (h1 : '-' ∉ s) (i : Nat) : '-' ∉ frameStem s i := by
  unfold frameStem
  intro h
  rw [List.mem_append, List.mem_append] at h
  rcases h with (h | h) | h
  · exact h1 h
  · exact absurd h (by decide)
  · exact decimal_no_dash i h

/-- the formats a reader looks for -/
theorem meshFormatOf_some {fmt : MeshFormat} {dir stem : Str} {fs : Files}
    (h1 : (fs.get (joinPath dir (fileName stem fmt.ext))).isSome = true)
    (h2 : ∀ e ∈ ["obj".toList, "glb".toList, "gltf".toList], e ≠ fmt.ext → fs.get (joinPath dir (fileName stem e)) = none) :
    meshFormatOf dir fs stem = some fmt := by
  unfold meshFormatOf
  cases fmt with
  | Obj => exact if_pos h1
  | Glb =>
    rw [h2 _ (by simp) (by decide), if_neg (by simp)]
    exact if_pos h1
  | Gltf =>
    rw [h2 _ (by simp) (by decide), if_neg (by simp), h2 _ (by simp) (by decide), if_neg (by simp)]
    exact if_pos h1

theorem meshFormatOf_none {dir stem : Str} {fs : Files}
    (h2 : ∀ e ∈ ["obj".toList, "glb".toList, "gltf".toList], fs.get (joinPath dir (fileName stem e)) = none) :
    meshFormatOf dir fs stem = none := by
  unfold meshFormatOf
  rw [h2 _ (by simp), if_neg (by simp), h2 _ (by simp), if_neg (by simp), h2 _ (by simp), if_neg (by simp)]

theorem mesh_exts : ∀ e ∈ ["obj".toList, "glb".toList, "gltf".toList], '.' ∉ e ∧ '/' ∉ e ∧ e ≠ "json".toList := by decide

theorem mesh_exts_dash : ∀ e ∈ ["obj".toList, "glb".toList, "gltf".toList], '-' ∉ e := by decide

theorem ext_dash (fmt : MeshFormat) : '-' ∉ fmt.ext := by cases fmt <;> decide

theorem other_ext {fmt : MeshFormat} : ∀ e ∈ ["obj".toList, "glb".toList, "gltf".toList], e ≠ fmt.ext →
    e ∉ fmt.exts := by
  cases fmt <;> decide

/-- a name with a stem and an extension that belongs to an item -/
theorem TaskFile.parts {fmt : MeshFormat} {n : Str} {g : GameItemEnum} {s e : Str} (he : '.' ∉ e)
    (hj : e ≠ "json".toList) (h : TaskFile E fmt n g (fileName s e)) : e ∈ fmt.exts ∧ ∃ p m, g = .primitive p ∧
      p.readMesh E.Z = .ok (some m) ∧ (s = n ∨ ∃ i, s = frameStem n i ∧ ∀ frames, FramesOf E.Z p frames → i < frames.length) := by
  rcases h with h | ⟨p, m, hp, hm, e', he', h⟩
  · exact absurd (fileName_inj he (by decide) h).2 hj
  · rcases h with h | ⟨i, h, hi⟩
    · obtain ⟨h1, h2⟩ := fileName_inj he (exts_plain fmt e' he').1 h
      exact ⟨h2 ▸ he', p, m, hp, hm, .inl h1⟩
    · obtain ⟨h1, h2⟩ := fileName_inj he (exts_plain fmt e' he').1 h
      exact ⟨h2 ▸ he', p, m, hp, hm, .inr ⟨i, h1, hi⟩⟩

variable {E}

theorem ItemsDir.absent_ext {fmt : MeshFormat} {dir : Str} {fs : Files} {zs : List (Str × GameItemEnum)}
    (h : ItemsDir E fmt dir fs zs) {s e : Str} (hs : '/' ∉ s) (hsd : '-' ∉ s)
    (he : '.' ∉ e ∧ '/' ∉ e ∧ e ≠ "json".toList) (hed : '-' ∉ e)
    (hx : e ∉ fmt.exts) : fs.get (joinPath dir (fileName s e)) = none := by
  refine h.absent _ (fileName_no_slash hs he.2.1) (fileName_no_dash hsd hed) fun hm => ?_
  obtain ⟨x, -, hx2⟩ := mem_itemsFiles E h.stems hm
  exact hx (TaskFile.parts E he.1 he.2.2 hx2).1

theorem ItemsDir.file {fmt : MeshFormat} {dir : Str} {fs : Files} {zs : List (Str × GameItemEnum)}
    (h : ItemsDir E fmt dir fs zs) {x : Str × GameItemEnum} (hx : x ∈ zs) {w : Str × Bytes}
    (hw : w ∈ (itemTask E fmt x.1 x.2).1) : fs.get (joinPath dir w.1) = some w.2 :=
  h.there w (List.mem_flatMap.2 ⟨x, hx, hw⟩)

/-- no mesh beside an item without one -/
theorem ItemsDir.no_mesh {fmt : MeshFormat} {dir : Str} {fs : Files} {zs : List (Str × GameItemEnum)}
    (h : ItemsDir E fmt dir fs zs) {n : Str} {p : Primitive} (hx : (n, GameItemEnum.primitive p) ∈ zs)
    (hm : p.readMesh E.Z = .ok none) : meshFormatOf dir fs n = none := by
  refine meshFormatOf_none fun e he => ?_
  have hp := mesh_exts e he
  have sx := h.stems.stem _ hx
  refine h.absent _ (fileName_no_slash sx.no_slash hp.2.1) (fileName_no_dash sx.no_dash (mesh_exts_dash e he))
    fun hmem => ?_
  obtain ⟨y, hy, hf⟩ := mem_itemsFiles E h.stems hmem
  obtain ⟨-, q, m, hq, hqm, hs⟩ := TaskFile.parts E hp.1 hp.2.2 hf
  rcases hs with hs | ⟨i, hs, -⟩
  · have e := h.stems.inj E _ hx y hy hs
    rw [← e] at hq
    cases hq
    rw [hm] at hqm
    cases hqm
  · have sy := h.stems.stem y hy
    rw [hq] at sy
    exact sx.ne_frame sy ((h.stems.ok _ hx).2 p rfl).notAnim i hs

/-- no frames beside those of the item -/
theorem ItemsDir.no_frame {fmt : MeshFormat} {dir : Str} {fs : Files} {zs : List (Str × GameItemEnum)}
    (h : ItemsDir E fmt dir fs zs) {n : Str} {p : Primitive} (hx : (n, GameItemEnum.primitive p) ∈ zs) {i : Nat}
    (hi : (∃ m, p.readMesh E.Z = .ok (some m)) → ∃ frames, FramesOf E.Z p frames ∧ frames.length ≤ i) (e : Str)
    (hp : '.' ∉ e ∧ '/' ∉ e ∧ e ≠ "json".toList) (hed : '-' ∉ e) : fs.get (joinPath dir (fileName (frameStem n i) e)) = none := by
  have sx := h.stems.stem _ hx
  refine h.absent _ (fileName_no_slash (frameStem_no_slash sx.no_slash i) hp.2.1)
    (fileName_no_dash (frameStem_no_dash sx.no_dash i) hed) fun hmem => ?_
  obtain ⟨y, hy, hf⟩ := mem_itemsFiles E h.stems hmem
  obtain ⟨-, q, m, hq, hqm, hs⟩ := TaskFile.parts E hp.1 hp.2.2 hf
  have sy := h.stems.stem y hy
  have oy := h.stems.ok y hy
  rw [hq] at sy oy
  rcases hs with hs | ⟨j, hs, hj⟩
  · exact sy.ne_frame sx (oy.2 q rfl).notAnim i hs.symm
  · obtain ⟨h1, h2⟩ := frameStem_inj hs
    have e := h.stems.inj E _ hx y hy h1
    rw [← e] at hq
    cases hq
    obtain ⟨frames, f1, f2⟩ := hi ⟨m, hqm⟩
    have := hj frames f1
    omega

/-! ### Frames -/

/-- as many files as there are different paths -/
theorem files_length {fs : Files} {path : Nat → Str} (hinj : ∀ i j, path i = path j → i = j) {n : Nat}
    (h : ∀ i < n, (fs.get (path i)).isSome = true) : n ≤ fs.length := by
  have h1 : ((List.range n).map path).Nodup := by
    unfold List.Nodup
    rw [List.pairwise_map]
    exact List.Pairwise.imp (fun hab he => hab (hinj _ _ he)) List.nodup_range
  have h2 : ((List.range n).map path) ⊆ fs.map (·.1) := by
    intro p hp
    obtain ⟨i, hi, rfl⟩ := List.mem_map.1 hp
    have := h i (List.mem_range.1 hi)
    unfold Files.get at this
    rw [Option.isSome_map, List.find?_isSome] at this
    obtain ⟨e, he, hep⟩ := this
    exact List.mem_map.2 ⟨e, he, eq_of_beq hep⟩
  have := List.Nodup.length_le_of_subset h1 h2
  simpa using this

theorem readFrames_back {fmt : MeshFormat} {dir base : Str} {fs : Files} (frames : List (List FrameVertex))
    (h1 : ∀ k fr, frames[k]? = some fr → ∃ data, fs.get (joinPath dir (fileName (frameStem base k) fmt.ext)) = some data ∧
      readFrameFile E dir fs fmt data = .ok fr)
    (h2 : fs.get (joinPath dir (fileName (frameStem base frames.length) fmt.ext)) = none) :
    ∀ (n i fuel : Nat), i + n = frames.length → n < fuel →
      readFrames E dir fs fmt base fuel i = .ok (frames.drop i)
  | 0, i, fuel + 1, hi, _ => by
    unfold readFrames
    have : i = frames.length := by omega
    rw [this, h2, List.drop_length]
  | n + 1, i, fuel + 1, hi, hf => by
    unfold readFrames
    have hlt : i < frames.length := by omega
    obtain ⟨data, d1, d2⟩ := h1 i frames[i] (List.getElem?_eq_getElem hlt)
    rw [d1]
    dsimp only
    rw [Res.thenOk d2, Res.thenOk (readFrames_back frames h1 h2 n (i + 1) fuel (by omega) (by omega))]
    rw [List.drop_eq_getElem_cons hlt]
    rfl

theorem not_data {stem : Str} {c : Char} {r : Str} (h : stem = c :: r) (hc : c ≠ 'd') :
    ¬ "data:".toList <+: stem ++ ".bin".toList := by
  rintro ⟨t, ht⟩
  rw [h] at ht
  have : 'd' = c := (List.cons.inj ht).1
  exact hc this.symm

theorem SameItem.refl (E : ExpandEnv) (g : GameItemEnum) : SameItem E g g :=
  ⟨rfl, fun p q hp hq => by rw [hp] at hq; cases hq; exact ⟨rfl, rfl⟩⟩

theorem setFrames_frames (Z : Zlib) (p : Primitive) (frames : List (List FrameVertex))
    (hz : ∀ fr ∈ frames, (Z.compress (fr.flatMap FrameVertex.bytes)).length < 4294967296) :
    (p.setFrames Z frames).frames Z = some (.ok frames) := by
  unfold Primitive.frames
  show some (_ : Res _) = _
  congr 1
  induction frames with
  | nil => rfl
  | cons fr frames ih =>
    have h1 : readFrame Z (Z.compress (fr.flatMap FrameVertex.bytes))
        (UInt32.ofNat (Z.compress (fr.flatMap FrameVertex.bytes)).length) = .ok fr := by
      have hz := hz fr List.mem_cons_self
      unfold readFrame
      rw [if_neg (not_not_intro (by simp; omega)), Z.decompress_compress]
      show readFrameLoop _ _ = _
      have hlen : (fr.flatMap FrameVertex.bytes).length = 24 * fr.length :=
        flatMap_length_const _ _ FrameVertex.bytes_length fr
      rw [hlen, Nat.mul_div_cancel_left _ (by omega)]
      have := readFrameLoop_bytes fr []
      rwa [List.append_nil] at this
    have ih' := ih fun x hx => hz x (List.mem_cons_of_mem _ hx)
    rw [List.map_cons, List.map_cons, List.zip_cons_cons, List.mapM_cons]
    dsimp only at ih' ⊢
    rw [h1, ih']
    rfl

/-- **the items**: each is read from its files -/
theorem readItem_back (S : StdText E.T) {fmt : MeshFormat} {dir : Str} {fs : Files} {zs : List (Str × GameItemEnum)}
    (h : ItemsDir E fmt dir fs zs) (hdir : ∀ a b, joinPath dir a = joinPath dir b → '/' ∉ a → '/' ∉ b → a = b)
    (x : Str × GameItemEnum) (hx : x ∈ zs) :
    ∃ g', readItem E dir fs (x.2.info (itemFile x.1)) = .ok g' ∧ SameItem E x.2 g' := by
  obtain ⟨n, g⟩ := x
  have sx := h.stems.stem _ hx
  have ox := h.stems.ok _ hx
  dsimp only at sx ox ⊢
  have hfile : (g.info (itemFile n)).file_name = itemFile n := by cases g <;> rfl
  have hjson : fs.get (joinPath dir (itemFile n)) = some (writeJson E.J jGameItem g) :=
    h.file hx (w := (itemFile n, writeJson E.J jGameItem g)) List.mem_cons_self
  have hread : readRequired E (joinPath dir (itemFile n)) fs jGameItem = .ok g.jsonPart :=
    readRequired_ok E hjson (readJson_item E.J ox.1)
  have hitem : readItem E dir fs (g.info (itemFile n)) = readBinaries E dir fs (itemFile n) g.withoutMesh := by
    unfold readItem
    rw [hfile, Res.thenOk hread, restore_info]
  rw [hitem]
  by_cases hprim : ∃ p, g = .primitive p
  · obtain ⟨p, rfl⟩ := hprim
    have hp := ox.2 p rfl
    have htrim : trimJson (itemFile n) = n := trimJson_file (sx.not_json hp.name)
    obtain ⟨om, hom, hfit⟩ := hp.mesh
    -- the primitive from the JSON file
    generalize hp0 : ({ p with
      num_vertices := none, compressed_vertices_len := none, compressed_vertices_data := none,
      num_indices := none, compressed_indices_len := none, compressed_indices_data := none,
      compressed_animation_vertices_len := none, compressed_animation_vertices_data := none } : Primitive) = p0
    have hw : (GameItemEnum.primitive p).withoutMesh = .primitive p0 := by rw [← hp0]; rfl
    rw [hw]
    unfold readBinaries
    dsimp only
    rw [htrim]
    cases om with
    | none =>
      have hm1 : readPrimitiveMesh E dir fs n p0 = .ok p0 := by
        unfold readPrimitiveMesh
        rw [h.no_mesh hx hom]
      have hm2 : readPrimitiveFrames E dir fs n p0 = .ok p0 := by
        unfold readPrimitiveFrames
        rw [meshFormatOf_none fun e he => h.no_frame hx (i := 0) (fun ⟨m, hm⟩ => by rw [hom] at hm; cases hm) e
          (mesh_exts e he) (mesh_exts_dash e he)]
      rw [Res.thenOk hm1, Res.thenOk hm2]
      refine ⟨.primitive p0, rfl, ?_, ?_⟩
      · rw [← hp0]; rfl
      · intro a b ha hb
        cases ha; cases hb
        refine ⟨?_, ?_⟩
        · rw [hom, ← hp0]; rfl
        · rcases hp.frames with hf | ⟨m, _, _, _, hm, _⟩
          · unfold Primitive.frames
            rw [hf, ← hp0]
          · rw [hom] at hm; cases hm
    | some m =>
      obtain ⟨a1, a2, a3, a4⟩ := readMesh_facts hom
      obtain ⟨frames, f1, f2, f3⟩ := primitive_task E sx hp hom
      obtain ⟨r, hr, -⟩ := sx.shape
      have hc : n = 'P' :: ("rimitive".toList ++ '.' :: r) := hr
      have hg1 : ∀ w ∈ meshFiles E fmt n p.name m, fs.get (joinPath dir w.1) = some w.2 := by
        intro w hw
        refine h.file hx ?_
        dsimp only
        rw [f3]
        exact List.mem_cons_of_mem _ (List.mem_append_left _ hw)
      have hg2 : ∀ k fr, frames[k]? = some fr → ∀ w ∈ meshFiles E fmt (frameStem n k) p.name
          ⟨replaceVertices m.vertices fr, m.faces⟩, fs.get (joinPath dir w.1) = some w.2 := by
        intro k fr hk w hw
        refine h.file hx ?_
        dsimp only
        rw [f3]
        refine List.mem_cons_of_mem _ (List.mem_append_right _ ?_)
        refine framesFiles_mem E fmt n p.name m frames 0 k fr hk w ?_
        rw [Nat.zero_add]
        exact hw
      have hmesh := meshFile_back E S fmt dir fs n p.name m a1 a4 (hfit m rfl) (not_data hc (by decide)) hg1
      have hsome : ∀ (stem : Str) (m' : Mesh), (∀ w ∈ meshFiles E fmt stem p.name m', fs.get (joinPath dir w.1) = some w.2) →
          (fs.get (joinPath dir (fileName stem fmt.ext))).isSome = true := by
        intro stem m' hw
        have hmem : fileName stem fmt.ext ∈ (meshFiles E fmt stem p.name m').map (·.1) := by
          rw [meshFiles_names]
          exact List.mem_map.2 ⟨_, ext_mem fmt, rfl⟩
        obtain ⟨w, w1, w2⟩ := List.mem_map.1 hmem
        rw [← w2, hw w w1]; rfl
      have hm1 : readPrimitiveMesh E dir fs n p0
          = .ok (p0.setMesh E.Z m.vertices.length (m.vertices.flatMap (·.encoded)) m.faces) := by
        unfold readPrimitiveMesh
        rw [meshFormatOf_some (hsome n m hg1) fun e he hne =>
          h.absent_ext sx.no_slash sx.no_dash (mesh_exts e he) (mesh_exts_dash e he) (other_ext e he hne)]
        dsimp only
        rw [Res.thenOk hmesh]
        rfl
      rw [Res.thenOk hm1]
      have hrm := setMesh_readMesh E.Z p0 m a1 a2 a3 a4
      generalize hp1 : p0.setMesh E.Z m.vertices.length (m.vertices.flatMap (·.encoded)) m.faces = p1 at hrm
      cases hfr : frames with
      | nil =>
        subst hfr
        have hm2 : readPrimitiveFrames E dir fs n p1 = .ok p1 := by
          unfold readPrimitiveFrames
          rw [meshFormatOf_none fun e he => h.no_frame hx (i := 0) (fun _ => ⟨[], f1, Nat.le_refl _⟩) e
            (mesh_exts e he) (mesh_exts_dash e he)]
        rw [Res.thenOk hm2]
        refine ⟨.primitive p1, rfl, ?_, ?_⟩
        · rw [← hp1, ← hp0]; rfl
        · intro a b ha hb
          cases ha; cases hb
          refine ⟨by rw [hom, hrm], ?_⟩
          rcases f1 with ⟨hd, -⟩ | ⟨datas, lens, d1, d2, d3, d4, d5⟩
          · unfold Primitive.frames
            rw [hd, ← hp1, ← hp0]
            rfl
          · have := mapM_length d5
            rw [List.length_zip, d4, Nat.min_self, List.length_nil] at this
            exact absurd (List.eq_nil_of_length_eq_zero this.symm) d3
      | cons fr0 rest =>
        have hz : frames[0]? = some fr0 := by rw [hfr]; rfl
        have hback : ∀ k fr, frames[k]? = some fr → ∃ data,
            fs.get (joinPath dir (fileName (frameStem n k) fmt.ext)) = some data ∧
            readFrameFile E dir fs fmt data = .ok fr := by
          intro k fr hk
          have hc2 : frameStem n k = 'P' :: ("rimitive".toList ++ '.' :: r ++ "_anim_".toList ++ decimal k) := by
            rw [hc]; rfl
          exact frameFile_back E S fmt dir fs (frameStem n k) p.name m fr a4 (hfit m rfl)
            (f2 fr (List.mem_of_getElem? hk)) (not_data hc2 (by decide)) (hg2 k fr hk)
        have hnone := h.no_frame hx (i := frames.length) (fun _ => ⟨frames, f1, Nat.le_refl _⟩) fmt.ext
          (exts_plain fmt _ (ext_mem fmt)) (ext_dash fmt)
        have hfuel : frames.length ≤ fs.length := by
          refine files_length (path := fun k => joinPath dir (fileName (frameStem n k) fmt.ext)) ?_ ?_
          · intro i j e
            have hx := (exts_plain fmt _ (ext_mem fmt))
            have := hdir _ _ e (fileName_no_slash (frameStem_no_slash sx.no_slash i) hx.2.1)
              (fileName_no_slash (frameStem_no_slash sx.no_slash j) hx.2.1)
            exact (frameStem_inj (fileName_inj hx.1 hx.1 this).1).2
          · intro i hi
            obtain ⟨d, d1, -⟩ := hback i frames[i] (List.getElem?_eq_getElem hi)
            rw [d1]; rfl
        have hm2 : readPrimitiveFrames E dir fs n p1 = .ok (p1.setFrames E.Z frames) := by
          unfold readPrimitiveFrames
          rw [meshFormatOf_some (fmt := fmt) (hsome _ _ (hg2 0 fr0 hz)) fun e he hne =>
            h.absent_ext (frameStem_no_slash sx.no_slash 0) (frameStem_no_dash sx.no_dash 0) (mesh_exts e he)
              (mesh_exts_dash e he) (other_ext e he hne)]
          dsimp only
          have := readFrames_back (E := E) (fmt := fmt) (dir := dir) (base := n) (fs := fs) frames hback hnone
            frames.length 0 (fs.length + 1) (by omega) (by omega)
          rw [List.drop_zero] at this
          rw [Res.thenOk this]
          rfl
        rw [Res.thenOk hm2]
        refine ⟨.primitive (p1.setFrames E.Z frames), rfl, ?_, ?_⟩
        · rw [← hp1, ← hp0]; rfl
        · intro a b ha hb
          cases ha; cases hb
          refine ⟨?_, ?_⟩
          · rw [hom, ← hrm]; rfl
          · rw [setFrames_frames E.Z p1 frames fun fr hfr => (f2 fr hfr).2.1]
            rcases f1 with ⟨-, he⟩ | ⟨datas, lens, d1, d2, d3, d4, d5⟩
            · rw [hfr] at he; cases he
            · unfold Primitive.frames
              rw [d1, d2]
              dsimp only
              rw [d5]
  · refine ⟨g, ?_, SameItem.refl E g⟩
    have e1 : g.withoutMesh = g := by
      cases g with
      | primitive p => exact absurd ⟨p, rfl⟩ hprim
      | _ => rfl
    rw [e1]
    cases g with
    | primitive p => exact absurd ⟨p, rfl⟩ hprim
    | _ => rfl

end Vpin
