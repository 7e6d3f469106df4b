import Verif.Lemmas.ExpandedMesh
/-
The files of the items of an expanded table: no two are the same, and each item is read from its own.
-/
namespace Vpin
variable (E : ExpandEnv)

/-! ### Files of a task -/

/-- the files of frames -/
def framesFiles (fmt : MeshFormat) (base name : Str) (m : Mesh) : Nat → List (List FrameVertex) → List (Str × Bytes)
  | _, [] => []
  | i, fr :: rest => meshFiles E fmt (frameStem base i) name ⟨replaceVertices m.vertices fr, m.faces⟩
      ++ framesFiles fmt base name m (i + 1) rest

theorem frameFiles_ok (fmt : MeshFormat) (base name : Str) (m : Mesh) : ∀ (l : List (Bytes × UInt32)) (i : Nat)
    (frames : List (List FrameVertex)), l.mapM (fun x => readFrame E.Z x.1 x.2) = .ok frames →
    frameFiles E fmt base name m i l = (framesFiles E fmt base name m i frames, .ok ())
  | [], i, frames, h => by cases h; rfl
  | (b, n) :: l, i, frames, h => by
    rw [List.mapM_cons] at h
    obtain ⟨fr, h1, h⟩ := Res.unbind h
    obtain ⟨rest, h2, h⟩ := Res.unbind h
    cases h
    unfold frameFiles
    dsimp only at h1
    rw [h1]
    dsimp only
    rw [frameFiles_ok fmt base name m l (i + 1) rest h2]
    rfl

theorem framesFiles_mem (fmt : MeshFormat) (base name : Str) (m : Mesh) : ∀ (frames : List (List FrameVertex)) (i k : Nat)
    (fr : List FrameVertex), frames[k]? = some fr →
    ∀ w ∈ meshFiles E fmt (frameStem base (i + k)) name ⟨replaceVertices m.vertices fr, m.faces⟩,
      w ∈ framesFiles E fmt base name m i frames
  | f :: frames, i, 0, fr, h, w, hw => by
    cases h
    exact List.mem_append_left _ hw
  | f :: frames, i, k + 1, fr, h, w, hw => by
    rw [show i + (k + 1) = (i + 1) + k by omega] at hw
    exact List.mem_append_right _ (framesFiles_mem fmt base name m frames (i + 1) k fr h w hw)

theorem framesFiles_names (fmt : MeshFormat) (base name : Str) (m : Mesh) : ∀ (frames : List (List FrameVertex)) (i : Nat),
    ∀ f ∈ (framesFiles E fmt base name m i frames).map (·.1), ∃ k, i ≤ k ∧ k < i + frames.length ∧ ∃ e ∈ fmt.exts,
      f = fileName (frameStem base k) e
  | [], i, f, h => by cases h
  | fr :: frames, i, f, h => by
    unfold framesFiles at h
    rw [List.map_append, List.mem_append, meshFiles_names] at h
    rcases h with h | h
    · obtain ⟨e, he, rfl⟩ := List.mem_map.1 h
      exact ⟨i, Nat.le_refl _, by simp, e, he, rfl⟩
    · obtain ⟨k, k1, k2, e, he, rfl⟩ := framesFiles_names fmt base name m frames (i + 1) f h
      exact ⟨k, by omega, by simp only [List.length_cons]; omega, e, he, rfl⟩

theorem exts_plain (fmt : MeshFormat) : ∀ e ∈ fmt.exts, '.' ∉ e ∧ '/' ∉ e ∧ e ≠ "json".toList := by
  cases fmt <;> decide

theorem exts_nodup (fmt : MeshFormat) (stem : Str) : (fmt.exts.map (fileName stem)).Nodup := by
  unfold List.Nodup
  rw [List.pairwise_map]
  have : fmt.exts.Nodup := by cases fmt <;> decide
  exact this.imp_of_mem fun {a b} ha hb hab e =>
    hab (fileName_inj (exts_plain fmt a ha).1 (exts_plain fmt b hb).1 e).2

theorem framesFiles_nodup (fmt : MeshFormat) (base name : Str) (m : Mesh) : ∀ (frames : List (List FrameVertex)) (i : Nat),
    ((framesFiles E fmt base name m i frames).map (·.1)).Nodup
  | [], i => by simp [framesFiles]
  | fr :: frames, i => by
    unfold framesFiles
    rw [List.map_append, List.nodup_append, meshFiles_names]
    refine ⟨exts_nodup fmt _, framesFiles_nodup fmt base name m frames (i + 1), ?_⟩
    intro a ha b hb e
    subst e
    obtain ⟨x, hx, rfl⟩ := List.mem_map.1 ha
    obtain ⟨k, k1, -, y, hy, e⟩ := framesFiles_names E fmt base name m frames (i + 1) _ hb
    have := (frameStem_inj (fileName_inj (exts_plain fmt x hx).1 (exts_plain fmt y hy).1 e).1).2
    omega

/-- the frames of a primitive in files -/
def FramesOf (Z : Zlib) (p : Primitive) (frames : List (List FrameVertex)) : Prop :=
  (p.compressed_animation_vertices_data = none ∧ frames = []) ∨
  ∃ datas lens, p.compressed_animation_vertices_data = some datas ∧
      p.compressed_animation_vertices_len = some lens ∧ datas ≠ [] ∧ lens.length = datas.length ∧
      (datas.zip lens).mapM (fun x => readFrame Z x.1 x.2) = .ok frames

theorem mapM_length {α β : Type} {f : α → Res β} : ∀ {l : List α} {out : List β}, l.mapM f = .ok out →
    out.length = l.length
  | [], out, h => by cases h; rfl
  | a :: l, out, h => by
    rw [List.mapM_cons] at h
    obtain ⟨b, -, h⟩ := Res.unbind h
    obtain ⟨rest, h2, h⟩ := Res.unbind h
    cases h
    simp [mapM_length h2]

/-- the files of a primitive with a mesh -/
theorem primitive_task {fmt : MeshFormat} {n : Str} {p : Primitive} (hst : StemOf E.U n (.primitive p))
    (hok : p.Expandable E fmt) {m : Mesh} (hm : p.readMesh E.Z = .ok (some m)) :
    ∃ frames, FramesOf E.Z p frames ∧ (∀ fr ∈ frames, FrameFits E fmt p.name m fr) ∧
      itemTask E fmt n (.primitive p) = ((itemFile n, writeJson E.J jGameItem (.primitive p)) ::
        (meshFiles E fmt n p.name m ++ framesFiles E fmt n p.name m 0 frames), .ok ()) := by
  have ht : trimJson n = n := trimJson_of_not (hst.not_json hok.name)
  rcases hok.frames with h | ⟨m', datas, lens, frames, h1, h2, h3, h4, h5, h6, h7⟩
  · refine ⟨[], .inl ⟨h, rfl⟩, nofun, ?_⟩
    unfold itemTask binaries Primitive.meshTask
    dsimp only
    rw [hm]
    dsimp only
    unfold Primitive.frameTask
    rw [h]
    rfl
  · rw [hm] at h1
    cases h1
    refine ⟨frames, .inr ⟨datas, lens, h2, h3, h4, h5, h6⟩, h7, ?_⟩
    unfold itemTask binaries Primitive.meshTask
    dsimp only
    rw [hm]
    dsimp only
    unfold Primitive.frameTask
    rw [h2, h3]
    dsimp only
    rw [ht, frameFiles_ok E fmt n p.name m _ 0 frames h6]

/-- the files of any other item -/
theorem plain_task {fmt : MeshFormat} {n : Str} {g : GameItemEnum}
    (h : ∀ p, g = .primitive p → p.readMesh E.Z = .ok none) :
    itemTask E fmt n g = ([(itemFile n, writeJson E.J jGameItem g)], .ok ()) := by
  unfold itemTask binaries
  cases g with
  | primitive p =>
    dsimp only
    unfold Primitive.meshTask
    rw [h p rfl]
  | _ => rfl

/-- the names of the files of an item -/
def TaskFile (fmt : MeshFormat) (n : Str) (g : GameItemEnum) (f : Str) : Prop :=
  f = itemFile n ∨ ∃ p m, g = .primitive p ∧ p.readMesh E.Z = .ok (some m) ∧ ∃ e ∈ fmt.exts,
    f = fileName n e ∨ ∃ i, f = fileName (frameStem n i) e ∧ ∀ frames, FramesOf E.Z p frames → i < frames.length

theorem FramesOf.unique {Z : Zlib} {p : Primitive} {a b : List (List FrameVertex)} (h1 : FramesOf Z p a)
    (h2 : FramesOf Z p b) : a = b := by
  rcases h1 with ⟨d1, rfl⟩ | ⟨x, y, d1, e1, -, -, f1⟩ <;> rcases h2 with ⟨d2, rfl⟩ | ⟨x', y', d2, e2, -, -, f2⟩
  · rfl
  · rw [d1] at d2; cases d2
  · rw [d1] at d2; cases d2
  · rw [d1] at d2; cases d2
    rw [e1] at e2; cases e2
    rw [f1] at f2; cases f2
    rfl

/-- is a primitive -/
def GameItemEnum.isPrimitive : GameItemEnum → Bool
  | .primitive _ => true
  | _ => false

theorem not_primitive {g : GameItemEnum} (h : g.isPrimitive = false) (p : Primitive) : g ≠ .primitive p := by
  intro e
  rw [e] at h
  cases h

theorem mesh_cases {fmt : MeshFormat} {g : GameItemEnum} (hok : g.Expandable E fmt) :
    (∀ p, g = .primitive p → p.readMesh E.Z = .ok none) ∨
    ∃ p m, g = .primitive p ∧ p.Expandable E fmt ∧ p.readMesh E.Z = .ok (some m) ∧ MeshFits E fmt p.name m := by
  cases g with
  | primitive p =>
    obtain ⟨om, h1, h2⟩ := (hok.2 p rfl).mesh
    cases om with
    | none => exact .inl fun q hq => by cases hq; exact h1
    | some m => exact .inr ⟨p, m, rfl, hok.2 p rfl, h1, h2 m rfl⟩
  | _ => exact .inl fun q hq => absurd hq (not_primitive rfl q)

theorem task_names {fmt : MeshFormat} {n : Str} {g : GameItemEnum} (hst : StemOf E.U n g) (hok : g.Expandable E fmt) :
    (∀ f ∈ (itemTask E fmt n g).1.map (·.1), TaskFile E fmt n g f) ∧ ((itemTask E fmt n g).1.map (·.1)).Nodup ∧
      (itemTask E fmt n g).2 = .ok () := by
  rcases mesh_cases E hok with h | ⟨p, m, rfl, hp, hm, -⟩
  · rw [plain_task E h]
    refine ⟨?_, by simp, rfl⟩
    intro f hf
    rw [List.map_cons, List.map_nil, List.mem_singleton] at hf
    exact .inl hf
  · obtain ⟨frames, h1, -, h2⟩ := primitive_task E hst hp hm
    rw [h2]
    refine ⟨?_, ?_, rfl⟩
    · intro f hf
      rw [List.map_cons, List.map_append, List.mem_cons, List.mem_append, meshFiles_names] at hf
      rcases hf with hf | hf | hf
      · exact .inl hf
      · obtain ⟨e, he, rfl⟩ := List.mem_map.1 hf
        exact .inr ⟨p, m, rfl, hm, e, he, .inl rfl⟩
      · obtain ⟨k, -, k2, e, he, rfl⟩ := framesFiles_names E fmt n p.name m frames 0 f hf
        refine .inr ⟨p, m, rfl, hm, e, he, .inr ⟨k, rfl, ?_⟩⟩
        intro fr' hfr
        rw [h1.unique hfr] at k2
        omega
    · rw [List.map_cons, List.map_append, List.nodup_cons, List.nodup_append, meshFiles_names]
      refine ⟨?_, exts_nodup fmt n, framesFiles_nodup E fmt n p.name m frames 0, ?_⟩
      · intro hm
        rcases List.mem_append.1 hm with hm | hm
        · obtain ⟨e, he, h3⟩ := List.mem_map.1 hm
          exact (exts_plain fmt e he).2.2 (fileName_inj (exts_plain fmt e he).1 (by decide) h3).2
        · obtain ⟨k, -, -, e, he, h3⟩ := framesFiles_names E fmt n p.name m frames 0 _ hm
          exact (exts_plain fmt e he).2.2 (fileName_inj (by decide) (exts_plain fmt e he).1 h3).2.symm
      · intro a ha b hb e
        subst e
        obtain ⟨x, hx, rfl⟩ := List.mem_map.1 ha
        obtain ⟨k, -, -, y, hy, h3⟩ := framesFiles_names E fmt n p.name m frames 0 _ hb
        exact hst.ne_frame hst hp.notAnim k (fileName_inj (exts_plain fmt x hx).1 (exts_plain fmt y hy).1 h3).1

/-- the files of all items -/
def itemsFiles (fmt : MeshFormat) (zs : List (Str × GameItemEnum)) : List (Str × Bytes) :=
  zs.flatMap fun x => (itemTask E fmt x.1 x.2).1

/-- items with the stems of their files -/
structure Stems (fmt : MeshFormat) (zs : List (Str × GameItemEnum)) : Prop where
  stem : ∀ x ∈ zs, StemOf E.U x.1 x.2
  ok : ∀ x ∈ zs, x.2.Expandable E fmt
  nodup : (zs.map (·.1)).Nodup

theorem Stems.inj {fmt : MeshFormat} {zs : List (Str × GameItemEnum)} (h : Stems E fmt zs) :
    ∀ x ∈ zs, ∀ y ∈ zs, x.1 = y.1 → x = y := by
  have := h.nodup
  clear h
  induction zs with
  | nil => intro x hx; cases hx
  | cons z zs ih =>
    rw [List.map_cons, List.nodup_cons] at this
    intro x hx y hy e
    rcases List.mem_cons.1 hx with rfl | hx' <;> rcases List.mem_cons.1 hy with rfl | hy'
    · rfl
    · exact absurd (List.mem_map.2 ⟨y, hy', e.symm⟩) this.1
    · exact absurd (List.mem_map.2 ⟨x, hx', e⟩) this.1
    · exact ih this.2 x hx' y hy' e

/-- two items that own the same file have the same stem -/
theorem Stems.owner {fmt : MeshFormat} {zs : List (Str × GameItemEnum)} (h : Stems E fmt zs) {x y : Str × GameItemEnum}
    (hx : x ∈ zs) (hy : y ∈ zs) {f : Str} (h1 : TaskFile E fmt x.1 x.2 f) (h2 : TaskFile E fmt y.1 y.2 f) : x.1 = y.1 := by
  have sx := h.stem x hx
  have sy := h.stem y hy
  have ox := h.ok x hx
  have oy := h.ok y hy
  rcases h1 with rfl | ⟨p, m, hp, -, e, he, h1⟩ <;> rcases h2 with h2 | ⟨q, m', hq, -, e', he', h2⟩
  · exact (fileName_inj (by decide) (by decide) h2).1
  · have : "json".toList = e' := by
      rcases h2 with h2 | ⟨i, h2, -⟩ <;> exact (fileName_inj (by decide) (exts_plain fmt e' he').1 h2).2
    exact absurd this.symm (exts_plain fmt e' he').2.2
  · have : e = "json".toList := by
      rcases h1 with h1 | ⟨i, h1, -⟩ <;>
        exact (fileName_inj (exts_plain fmt e he).1 (by decide) (h1.symm.trans h2)).2
    exact absurd this (exts_plain fmt e he).2.2
  · rw [hp] at sx ox
    rw [hq] at sy oy
    rcases h1 with h1 | ⟨i, h1, -⟩ <;> rcases h2 with h2 | ⟨j, h2, -⟩
    · exact (fileName_inj (exts_plain fmt e he).1 (exts_plain fmt e' he').1 (h1.symm.trans h2)).1
    · exact absurd (fileName_inj (exts_plain fmt e he).1 (exts_plain fmt e' he').1 (h1.symm.trans h2)).1
        (sx.ne_frame sy (ox.2 p rfl).notAnim j)
    · exact absurd (fileName_inj (exts_plain fmt e he).1 (exts_plain fmt e' he').1 (h1.symm.trans h2)).1.symm
        (sy.ne_frame sx (oy.2 q rfl).notAnim i)
    · exact (frameStem_inj (fileName_inj (exts_plain fmt e he).1 (exts_plain fmt e' he').1 (h1.symm.trans h2)).1).1

theorem itemsFiles_nodup {fmt : MeshFormat} {zs : List (Str × GameItemEnum)} (h : Stems E fmt zs) :
    ((itemsFiles E fmt zs).map (·.1)).Nodup := by
  unfold itemsFiles List.Nodup
  rw [List.map_flatMap, List.pairwise_flatMap]
  refine ⟨fun x hx => (task_names E (h.stem x hx) (h.ok x hx)).2.1, ?_⟩
  have hn := h.nodup
  unfold List.Nodup at hn
  rw [List.pairwise_map] at hn
  refine hn.imp_of_mem fun {x y} hx hy hxy a ha b hb e => ?_
  subst e
  exact hxy (h.owner E hx hy ((task_names E (h.stem x hx) (h.ok x hx)).1 a ha)
    ((task_names E (h.stem y hy) (h.ok y hy)).1 a hb))

/-- a file of the directory that belongs to some item -/
theorem mem_itemsFiles {fmt : MeshFormat} {zs : List (Str × GameItemEnum)} (h : Stems E fmt zs) {f : Str}
    (hf : f ∈ (itemsFiles E fmt zs).map (·.1)) : ∃ x ∈ zs, TaskFile E fmt x.1 x.2 f := by
  obtain ⟨w, hw, rfl⟩ := List.mem_map.1 hf
  obtain ⟨x, hx, hwx⟩ := List.mem_flatMap.1 hw
  exact ⟨x, hx, (task_names E (h.stem x hx) (h.ok x hx)).1 _ (List.mem_map.2 ⟨w, hwx, rfl⟩)⟩

end Vpin
